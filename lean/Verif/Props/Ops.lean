import Mathlib.Data.List.Nodup
import Mathlib.Data.List.Perm.Subperm
import Verif.Model.Ops
import Verif.Spec.Ops

/-!
# Single operators (C68 to C72)
-/

namespace Verif.Ops
open Verif

/-! ## C68 -/

theorem chunks_length {α : Type} (size : Nat) (hs : size ≠ 0) (xs : List α) :
    (Spec.chunks size xs).length = max 1 ((xs.length + size - 1) / size) := by
  generalize hn : xs.length = n
  induction n using Nat.strongRecOn generalizing xs with
  | ind n ih =>
    unfold Spec.chunks
    split
    · next h =>
      have hle : n ≤ size := by omega
      have : (n + size - 1) / size ≤ 1 := by
        rw [Nat.div_le_iff_le_mul_add_pred (by omega)]; omega
      simp; omega
    · next h =>
      have hlt : size < n := by omega
      rw [List.length_cons, ih (n - size) (by omega) _ (by simp [hn])]
      have e : (n + size - 1) / size = (n - size + size - 1) / size + 1 := by
        rw [← Nat.add_div_right _ (by omega : 0 < size)]
        congr 1; omega
      have h1 : 1 ≤ (n - size + size - 1) / size := by
        rw [Nat.le_div_iff_mul_le (by omega)]; omega
      omega

theorem chunks_mul {α : Type} (size k : Nat) (hs : size ≠ 0) (hk : k ≠ 0) (xs : List α) (hx : xs.length = k * size) :
    Spec.chunks size xs = (List.range k).map fun i => (xs.drop (i * size)).take size := by
  induction k generalizing xs with
  | zero => exact absurd rfl hk
  | succ k ih =>
    unfold Spec.chunks
    by_cases hk0 : k = 0
    · subst hk0
      rw [if_pos (by right; omega)]
      simp only [List.range_succ, List.range_zero, List.nil_append, List.map_cons, List.map_nil, Nat.zero_mul,
        List.drop_zero]
      rw [List.take_of_length_le (by omega)]
    · have hlt : size < xs.length := by
        rw [hx, Nat.succ_mul]
        have : 0 < k * size := Nat.mul_pos (by omega) (by omega)
        omega
      rw [if_neg (by omega), ih hk0 (xs.drop size) (by rw [List.length_drop, hx, Nat.succ_mul]; omega),
        List.range_succ_eq_map, List.map_cons, List.map_map]
      simp only [Nat.zero_mul, List.drop_zero, List.cons.injEq, true_and]
      apply List.map_congr_left
      intro i _
      simp only [Function.comp_apply, List.drop_drop]
      congr 2
      rw [Nat.succ_mul]; omega

/-- **C68, exactly when.** For a part size at least 1 the helper gives the parts that PyTorch gives if and only if the
tensor is not empty along the axis and the part size divides its size. -/
theorem C68_split_partial {α : Type} (xs : List α) (size : Nat) (hs : size ≠ 0) :
    tensorSplit xs size = some (Spec.chunks size xs) ↔ xs ≠ [] ∧ size ∣ xs.length := by
  constructor
  · intro h
    simp only [tensorSplit, if_neg hs, paddleSplit] at h
    split at h
    · next hc =>
      have hl := congrArg (Option.map List.length) h
      simp only [Option.map_some, List.length_map, List.length_range, Option.some.injEq] at hl
      rw [chunks_length size hs] at hl
      have hne : xs ≠ [] := by
        intro e; subst e; simp at hc
      refine ⟨hne, ?_⟩
      have hpos : 0 < xs.length := List.length_pos_iff.2 hne
      have hc1 : 1 ≤ xs.length / size := by omega
      have hq : (xs.length + size - 1) / size ≤ xs.length / size := by omega
      have hm := Nat.div_add_mod xs.length size
      by_cases hz : xs.length % size = 0
      · exact Nat.dvd_of_mod_eq_zero hz
      · exfalso
        have : xs.length / size + 1 ≤ (xs.length + size - 1) / size := by
          rw [Nat.le_div_iff_mul_le (by omega), Nat.succ_mul, Nat.mul_comm]; omega
        omega
    · simp at h
  · rintro ⟨hne, k, hk⟩
    have hpos : 0 < xs.length := List.length_pos_iff.2 hne
    have hk0 : k ≠ 0 := by intro e; rw [e, Nat.mul_zero] at hk; omega
    have hd : xs.length / size = k := by rw [hk, Nat.mul_div_cancel_left _ (by omega)]
    have hd2 : xs.length / k = size := by rw [hk, Nat.mul_div_cancel _ (by omega)]
    simp only [tensorSplit, if_neg hs, paddleSplit, hd, hd2]
    rw [if_pos ⟨hk0, by rw [hk]; simp⟩, chunks_mul size k hs hk0 xs (by rw [hk, Nat.mul_comm])]

example : ([0, 1, 2, 3, 4, 5] : List Nat) ≠ [] ∧ 2 ∣ ([0, 1, 2, 3, 4, 5] : List Nat).length ∧
    tensorSplit [0, 1, 2, 3, 4, 5] 2 = some [[0, 1], [2, 3], [4, 5]] := by decide

/-- **C68 is false in general.** Six slices in parts of four: PyTorch gives parts of four and two, the helper gives one
part of six, without an error. Seven slices in parts of two: the helper fails. -/
theorem C68_negative : tensorSplit [0, 1, 2, 3, 4, 5] 4 = some [[0, 1, 2, 3, 4, 5]] ∧
    Spec.chunks 4 [0, 1, 2, 3, 4, 5] = [[0, 1, 2, 3], [4, 5]] ∧
    tensorSplit [0, 1, 2, 3, 4, 5, 6] 2 = none := by
  refine ⟨by decide, ?_, by decide⟩
  unfold Spec.chunks; rw [if_neg (by decide)]
  unfold Spec.chunks; rw [if_pos (by decide)]
  rfl

/-! ## C69 -/

theorem DType.mem_all (a : Spec.DType) : a ∈ Spec.DType.all := by cases a <;> decide

/-- **C69.** For every pair of the types that PyTorch and Paddle share, the helper answers (no `KeyError`), and it
allows exactly the casts that PyTorch allows. -/
theorem C69_can_cast (a b : Spec.DType) : ∃ r, canCast a.name b.name = some r ∧ (r = true ↔ Spec.CanCast a b) := by
  have h : ∀ a ∈ Spec.DType.all, ∀ b ∈ Spec.DType.all,
      canCast a.name b.name = some (decide (a.category.rank ≤ b.category.rank)) := by decide +kernel
  exact ⟨_, h a (DType.mem_all a) b (DType.mem_all b), by simp [Spec.CanCast]⟩

example : canCast py"int64" py"float32" = some true ∧ canCast py"float32" py"int64" = some false := by decide

/-! ## C70 -/

/-- **C70, the layers.** `Softmin()`, `Softmin(None)` and `LogSoftmax(None)` use the axis that PyTorch uses, for every
number of axes. -/
theorem C70_layers (ndim : Nat) :
    Spec.ImplicitAxis ndim (layerAxis (softminArg none) ndim) ∧
    Spec.ImplicitAxis ndim (layerAxis (softminArg (some none)) ndim) ∧
    Spec.ImplicitAxis ndim (layerAxis (logSoftmaxArg (some none)) ndim) := by
  have : Spec.ImplicitAxis ndim (softmaxDim ndim) := by
    unfold Spec.ImplicitAxis softmaxDim
    by_cases h : ndim = 0 ∨ ndim = 1 ∨ ndim = 3
    · rw [if_pos (by omega), if_pos (by simpa using h)]
    · rw [if_neg (by omega), if_neg (by simpa using h)]
  exact ⟨this, this, this⟩

/-- **C70, an axis that is given is used.** -/
theorem C70_given (d : Int) (ndim : Nat) :
    layerAxis (softminArg (some (some d))) ndim = d ∧ layerAxis (logSoftmaxArg (some (some d))) ndim = d := ⟨rfl, rfl⟩

/-- **C70, the default of `LogSoftmax` (partial).** `LogSoftmax()` uses the right axis exactly for tensors with 0, 1 or
3 axes. -/
theorem C70_log_softmax_partial (ndim : Nat) :
    Spec.ImplicitAxis ndim (layerAxis (logSoftmaxArg none) ndim) ↔ ndim ∈ [0, 1, 3] := by
  unfold Spec.ImplicitAxis layerAxis logSoftmaxArg
  by_cases h : ndim ∈ [0, 1, 3]
  · simp [h]
  · rw [if_neg h]; simp only [h, iff_false]; simp

/-- **C70, the function `softmin` (partial).** `softmin(x)` uses the right axis exactly for tensors that have neither 1
nor 3 axes. -/
theorem C70_softmin_partial (ndim : Nat) :
    Spec.ImplicitAxis ndim (softminAxis ndim) ↔ ndim ≠ 1 ∧ ndim ≠ 3 := by
  unfold Spec.ImplicitAxis softminAxis softmaxDim
  by_cases h : ndim ∈ [0, 1, 3]
  · simp only [List.mem_cons, List.not_mem_nil, or_false] at h
    rcases h with rfl | rfl | rfl <;> decide
  · rw [if_neg h]
    simp only [List.mem_cons, List.not_mem_nil, or_false, not_or] at h
    rw [if_neg (by omega)]
    simp [h.2.1, h.2.2]

/-- **C70 is false in general**: a matrix and `LogSoftmax()`, a vector and `softmin(x)`. -/
theorem C70_negative : ¬ Spec.ImplicitAxis 2 (layerAxis (logSoftmaxArg none) 2) ∧ ¬ Spec.ImplicitAxis 1 (softminAxis 1) := by
  rw [C70_log_softmax_partial, C70_softmin_partial]; decide

/-! ## C71 -/

theorem foldl_set_length {α : Type} (l : List (Nat × α)) (x : List α) :
    (l.foldl (fun x p => x.set p.1 p.2) x).length = x.length := by
  induction l generalizing x with
  | nil => rfl
  | cons p l ih => rw [List.foldl_cons, ih]; simp

theorem foldl_set_other {α : Type} (l : List (Nat × α)) (x : List α) (q : Nat) (h : q ∉ l.map Prod.fst) :
    (l.foldl (fun x p => x.set p.1 p.2) x)[q]? = x[q]? := by
  induction l generalizing x with
  | nil => rfl
  | cons p l ih =>
    simp only [List.map_cons, List.mem_cons, not_or] at h
    rw [List.foldl_cons, ih _ h.2, List.getElem?_set_ne (fun e => h.1 e.symm)]

theorem foldl_set_at {α : Type} (l : List (Nat × α)) (x : List α) (hn : (l.map Prod.fst).Nodup)
    (hb : ∀ i ∈ l.map Prod.fst, i < x.length) (m : Nat) (p : Nat × α) (hm : l[m]? = some p) :
    (l.foldl (fun x p => x.set p.1 p.2) x)[p.1]? = some p.2 := by
  induction l generalizing x m with
  | nil => simp at hm
  | cons q l ih =>
    simp only [List.map_cons, List.nodup_cons] at hn
    rw [List.foldl_cons]
    cases m with
    | zero =>
      simp only [List.getElem?_cons_zero, Option.some.injEq] at hm
      subst hm
      rw [foldl_set_other _ _ _ hn.1, List.getElem?_set_self (hb _ (by simp))]
    | succ m =>
      exact ih _ hn.2 (by intro i hi; simpa using hb i (by simp [hi])) m (by simpa using hm)

theorem tempIndex_eq (times : Nat) (ht : times ≠ 0) (index : List Nat) :
    tempIndex times index = (List.range times).flatMap fun i => index.map (· + index.length * i) := by
  obtain ⟨t, rfl⟩ := Nat.exists_eq_succ_of_ne_zero ht
  unfold tempIndex
  rw [List.range_eq_range', Nat.succ_eq_add_one, Nat.add_sub_cancel, List.range'_succ, List.flatMap_cons]
  simp

theorem flatMap_block {α β : Type} (l : List α) (f : α → List β) (n : Nat) (hf : ∀ a ∈ l, (f a).length = n) (o : Nat)
    (a : α) (ha : l[o]? = some a) (k : Nat) (hk : k < n) : (l.flatMap f)[o * n + k]? = (f a)[k]? := by
  induction l generalizing o with
  | nil => simp at ha
  | cons b l ih =>
    rw [List.flatMap_cons]
    have hb := hf b (by simp)
    cases o with
    | zero =>
      simp only [List.getElem?_cons_zero, Option.some.injEq] at ha
      subst ha
      rw [List.getElem?_append_left (by omega)]; simp
    | succ o =>
      rw [List.getElem?_append_right (by rw [hb, Nat.succ_mul]; omega), hb]
      have : (o + 1) * n + k - n = o * n + k := by rw [Nat.succ_mul]; omega
      rw [this]
      exact ih (fun a h => hf a (by simp [h])) o (by simpa using ha)

theorem flatMap_length {α β : Type} (l : List α) (f : α → List β) (n : Nat) (hf : ∀ a ∈ l, (f a).length = n) :
    (l.flatMap f).length = l.length * n := by
  induction l with
  | nil => simp
  | cons b l ih =>
    rw [List.flatMap_cons, List.length_append, ih (fun a h => hf a (by simp [h])), hf b (by simp), List.length_cons,
      Nat.succ_mul, Nat.add_comm]

theorem mem_tempIndex {times : Nat} (ht : times ≠ 0) {index : List Nat} {q : Nat} :
    q ∈ tempIndex times index ↔ ∃ o < times, ∃ i ∈ index, q = i + index.length * o := by
  rw [tempIndex_eq _ ht]
  simp only [List.mem_flatMap, List.mem_range, List.mem_map]
  constructor
  · rintro ⟨o, ho, i, hi, rfl⟩; exact ⟨o, ho, i, hi, rfl⟩
  · rintro ⟨o, ho, i, hi, rfl⟩; exact ⟨o, ho, i, hi, rfl⟩

/-- Blocks of the same size: a row number determines the block and the row in it. -/
theorem block_inj {n o o' i i' : Nat} (hi : i < n) (hi' : i' < n) (h : i + n * o = i' + n * o') : o = o' ∧ i = i' := by
  have h1 : (i + n * o) / n = o := by rw [Nat.add_mul_div_left _ _ (by omega), Nat.div_eq_of_lt hi]; omega
  have h2 : (i' + n * o') / n = o' := by rw [Nat.add_mul_div_left _ _ (by omega), Nat.div_eq_of_lt hi']; omega
  have e : o = o' := by rw [← h1, ← h2, h]
  subst e
  exact ⟨rfl, by omega⟩

theorem tempIndex_nodup {times : Nat} (ht : times ≠ 0) {index : List Nat} (hn : index.Nodup)
    (hb : ∀ i ∈ index, i < index.length) : (tempIndex times index).Nodup := by
  rw [tempIndex_eq _ ht, List.nodup_flatMap]
  constructor
  · intro o _
    exact hn.map (fun a b h => by simpa using h)
  · refine List.nodup_range.imp ?_ 
    intro o o' hoo'
    simp only [Function.onFun, List.disjoint_left, List.mem_map]
    rintro q ⟨i, hi, rfl⟩ ⟨i', hi', e⟩
    exact hoo' (block_inj (hb i hi) (hb i' hi') e.symm).1

/-- **C71 (partial).** If the index list has as many entries as the axis has slices, the code computes
`torch.index_copy`, for every axis and every number of blocks. The full claim has index lists of any length. -/
theorem C71_index_copy_partial {α : Type} (outer size : Nat) (ho : outer ≠ 0) (x source : List α) (index : List Nat)
    (hx : x.length = outer * size) (hs : source.length = outer * index.length) (hn : index.Nodup)
    (hb : ∀ i ∈ index, i < size) (hl : index.length = size) :
    ∃ out, indexCopy outer x index source = some out ∧ Spec.IsIndexCopy outer size x index source out := by
  have hb' : ∀ i ∈ index, i < index.length := fun i h => hl ▸ hb i h
  have hlen : (tempIndex outer index).length = source.length := by
    rw [tempIndex_eq _ ho, flatMap_length _ _ index.length (by simp), List.length_range, hs]
  have hbound : ∀ i ∈ tempIndex outer index, i < x.length := by
    intro q hq
    obtain ⟨o, ho', i, hi, rfl⟩ := (mem_tempIndex ho).1 hq
    have h1 := hb i hi
    rw [hl, hx]
    calc i + size * o < size + size * o := by omega
      _ = (o + 1) * size := by rw [Nat.succ_mul, Nat.mul_comm]; omega
      _ ≤ outer * size := Nat.mul_le_mul_right _ ho'
  have hfst : ((tempIndex outer index).zip source).map Prod.fst = tempIndex outer index := by
    rw [List.map_fst_zip]; omega
  refine ⟨_, by rw [indexCopy, scatter, if_pos ⟨hlen, hbound⟩], ?_, ?_, ?_⟩
  · exact foldl_set_length _ _
  · intro o ho' k i hk
    have hkl : k < index.length := by
      rcases Nat.lt_or_ge k index.length with h | h
      · exact h
      · rw [List.getElem?_eq_none h] at hk; simp at hk
    have h1 : (tempIndex outer index)[o * index.length + k]? = some (o * size + i) := by
      rw [tempIndex_eq _ ho, flatMap_block _ _ index.length (by simp) o o (by simp [ho']) k hkl]
      simp only [List.getElem?_map, hk, Option.map_some, Option.some.injEq]
      rw [hl, Nat.mul_comm, Nat.add_comm]
    have h2 : o * index.length + k < source.length := by
      rw [hs]
      calc o * index.length + k < (o + 1) * index.length := by rw [Nat.succ_mul]; omega
        _ ≤ outer * index.length := Nat.mul_le_mul_right _ ho'
    rw [List.getElem?_eq_getElem h2]
    have := foldl_set_at ((tempIndex outer index).zip source) x (by rw [hfst]; exact tempIndex_nodup ho hn hb')
      (by rw [hfst]; exact hbound) (o * index.length + k) (o * size + i, source[o * index.length + k])
      (by rw [List.getElem?_zip_eq_some]; exact ⟨h1, List.getElem?_eq_getElem h2⟩)
    exact this
  · intro o ho' j hj hji
    apply foldl_set_other
    rw [hfst, mem_tempIndex ho]
    rintro ⟨o', _, i, hi, e⟩
    have : j = i := by
      have e' : j + size * o = i + size * o' := by rw [hl] at e; rw [Nat.mul_comm size o, Nat.add_comm, e]
      exact (block_inj hj (hb i hi) e').2
    exact hji (this ▸ hi)

example : indexCopy 2 [0, 1, 2, 3] [1, 0] [10, 11, 12, 13] = some [11, 10, 13, 12] := by decide

/-- **C71 is false whenever fewer slices are copied than the axis has.** For every number of blocks above one, every
axis size and every nonempty list of fewer different indices, there are tensors for which the code fails or computes
something else. -/
theorem C71_negative (outer size : Nat) (ho : 2 ≤ outer) (index : List Nat) (hne : index ≠ []) (hn : index.Nodup)
    (hb : ∀ i ∈ index, i < size) (hl : index.length ≠ size) :
    ∃ x source : List Nat, x.length = outer * size ∧ source.length = outer * index.length ∧
      ∀ out, indexCopy outer x index source = some out → ¬ Spec.IsIndexCopy outer size x index source out := by
  have hlt : index.length < size := by
    have hsub : index ⊆ List.range size := fun i hi => List.mem_range.2 (hb i hi)
    have h1 := (List.subperm_of_subset hn hsub).length_le
    rw [List.length_range] at h1
    omega
  refine ⟨List.replicate (outer * size) 0, List.replicate (outer * index.length) 1, by simp, by simp, ?_⟩
  intro out hout hspec
  -- the largest index
  obtain ⟨m, hm, hmax⟩ : ∃ m ∈ index, ∀ i ∈ index, i ≤ m := by
    clear hb hn hl hlt hout hspec
    induction index with
    | nil => exact absurd rfl hne
    | cons a l ih =>
      by_cases hl : l = []
      · subst hl; exact ⟨a, by simp, by simp⟩
      · obtain ⟨m, hm, h⟩ := ih hl
        rcases Nat.le_total a m with h' | h'
        · exact ⟨m, by simp [hm], by intro i hi; rcases List.mem_cons.1 hi with rfl | hi; exact h'; exact h i hi⟩
        · refine ⟨a, by simp, ?_⟩
          intro i hi
          rcases List.mem_cons.1 hi with rfl | hi
          · exact Nat.le_refl _
          · exact Nat.le_trans (h i hi) h'
  obtain ⟨k, hk⟩ := List.getElem?_of_mem hm
  have hkl : k < index.length := by
    rcases Nat.lt_or_ge k index.length with h | h
    · exact h
    · rw [List.getElem?_eq_none h] at hk; simp at hk
  have h1 := hspec.copied (outer - 1) (by omega) k m hk
  have hidx : (outer - 1) * index.length + k < outer * index.length := by
    calc (outer - 1) * index.length + k < (outer - 1 + 1) * index.length := by rw [Nat.succ_mul]; omega
      _ = outer * index.length := by congr 1; omega
  rw [List.getElem?_replicate, if_pos hidx] at h1
  -- but the code does not write there
  simp only [indexCopy, scatter] at hout
  split at hout
  · next hc =>
    simp only [Option.some.injEq] at hout
    subst hout
    rw [foldl_set_other] at h1
    · rw [List.getElem?_replicate] at h1
      split at h1 <;> simp at h1
    · intro hq
      have hq' : (outer - 1) * size + m ∈ tempIndex outer index := by
        rw [List.map_fst_zip (by omega)] at hq; exact hq
      obtain ⟨o, ho', i, hi, e⟩ := (mem_tempIndex (by omega)).1 hq'
      have e1 := hmax i hi
      have e2 : index.length * o ≤ index.length * (outer - 1) := Nat.mul_le_mul_left _ (by omega)
      have e3 : index.length * (outer - 1) < size * (outer - 1) := Nat.mul_lt_mul_of_pos_right hlt (by omega)
      rw [Nat.mul_comm (outer - 1) size] at e
      omega
  · simp at hout

/-- The hypotheses of `C71_negative` are met: two blocks of three rows, one of which is copied. -/
example : (2 ≤ 2) ∧ ([0] : List Nat) ≠ [] ∧ ([0] : List Nat).Nodup ∧ (∀ i ∈ ([0] : List Nat), i < 3) ∧
    ([0] : List Nat).length ≠ 3 := by decide

theorem indexCopy_one {α : Type} (x source : List α) (index : List Nat) : indexCopy 1 x index source = scatter x index source := by
  simp [indexCopy, tempIndex]

/-- **C71, one block.** For the first axis, and for every axis with only axes of size 1 before it, the code computes
`torch.index_copy` for index lists of every length. -/
theorem C71_first_axis {α : Type} (size : Nat) (x source : List α) (index : List Nat) (hx : x.length = size)
    (hs : source.length = index.length) (hn : index.Nodup) (hb : ∀ i ∈ index, i < size) :
    ∃ out, indexCopyFirst x index source = some out ∧ indexCopy 1 x index source = some out ∧
      Spec.IsIndexCopy 1 size x index source out := by
  have hbound : ∀ i ∈ index, i < x.length := fun i h => hx ▸ hb i h
  have hfst : (index.zip source).map Prod.fst = index := by rw [List.map_fst_zip]; omega
  have e : scatter x index source = some ((index.zip source).foldl (fun x p => x.set p.1 p.2) x) := by
    rw [scatter, if_pos ⟨hs.symm, hbound⟩]
  refine ⟨_, e, by rw [indexCopy_one]; exact e, foldl_set_length _ _, ?_, ?_⟩
  · intro o ho k i hk
    obtain rfl : o = 0 := by omega
    have hkl : k < source.length := by
      rcases Nat.lt_or_ge k index.length with h | h
      · omega
      · rw [List.getElem?_eq_none h] at hk; simp at hk
    simp only [Nat.zero_mul, Nat.zero_add]
    rw [List.getElem?_eq_getElem hkl]
    exact foldl_set_at (index.zip source) x (by rw [hfst]; exact hn) (by rw [hfst]; exact hbound) k (i, source[k])
      (by rw [List.getElem?_zip_eq_some]; exact ⟨hk, List.getElem?_eq_getElem hkl⟩)
  · intro o ho j _ hji
    obtain rfl : o = 0 := by omega
    simp only [Nat.zero_mul, Nat.zero_add]
    exact foldl_set_other _ _ _ (by rw [hfst]; exact hji)

example : indexCopyFirst [0, 1, 2] [2, 0] [10, 11] = some [11, 1, 10] := by decide

/-- **C71, the axes (partial).** For every axis but `-1` the shape is cut before and behind the axis, also if it is counted from
the end. -/
theorem C71_axes_partial (shape : List Nat) (dim : Int) (h1 : -(shape.length : Int) ≤ dim) (h2 : dim < shape.length)
    (h3 : dim ≠ -1) (k : Nat) (hk : (k : Int) = if dim < 0 then dim + shape.length else dim) :
    axesBefore shape dim = shape.take k ∧ axesBehind shape dim = shape.drop (k + 1) ∧
      ∃ n, shape[k]? = some n ∧ shape = axesBefore shape dim ++ n :: axesBehind shape dim := by
  have e1 : axesBefore shape dim = shape.take k := by
    unfold axesBefore sliceEnd
    congr 1
    split at hk <;> rename_i h
    · rw [if_pos h]; omega
    · rw [if_neg h]; omega
  have e2 : axesBehind shape dim = shape.drop (k + 1) := by
    unfold axesBehind sliceEnd
    congr 1
    split at hk <;> rename_i h
    · rw [if_pos (by omega)]; omega
    · rw [if_neg (by omega)]; omega
  have hkl : k < shape.length := by split at hk <;> omega
  refine ⟨e1, e2, shape[k], List.getElem?_eq_getElem hkl, ?_⟩
  rw [e1, e2, List.getElem_cons_drop, List.take_append_drop]

theorem numel_append (a b : List Nat) : numel (a ++ b) = numel a * numel b := by
  induction a with
  | nil => simp [numel]
  | cons x a ih =>
    simp only [numel, List.cons_append, List.foldr_cons] at ih ⊢
    rw [ih, Nat.mul_assoc]

/-- **C71 is false for the axis `-1`**: `shape[dim+1:]` is the whole shape, so that there is no number of rows that fits both the
source, reshaped to `[-1] + shape`, and the indices. (The axis has more than one slice, and no axis is empty.) -/
theorem C71_last_negative (axes : List Nat) (size : Nat) (index : List Nat) (ha : numel axes ≠ 0) (hs : 2 ≤ size)
    (hi : index ≠ []) :
    axesBehind (axes ++ [size]) (-1) = axes ++ [size] ∧
      ¬ ∃ rows, rows * numel (axesBehind (axes ++ [size]) (-1)) = numel axes * index.length ∧
        rows = (tempIndex (numel (axesBefore (axes ++ [size]) (-1))) index).length := by
  have e : axesBehind (axes ++ [size]) (-1) = axes ++ [size] := by simp [axesBehind, sliceEnd]
  have eb : axesBefore (axes ++ [size]) (-1) = axes := by
    have : sliceEnd (axes ++ [size]).length (-1) = axes.length := by simp [sliceEnd]; omega
    rw [axesBefore, this, List.take_left']
    rfl
  refine ⟨e, ?_⟩
  rintro ⟨rows, h1, h2⟩
  rw [eb, tempIndex_eq _ ha, flatMap_length _ _ index.length (by simp), List.length_range] at h2
  rw [e, h2, numel_append] at h1
  have hpos : 0 < numel axes * index.length := Nat.mul_pos (by omega) (List.length_pos_iff.2 hi)
  have h3 : numel axes * numel [size] = 1 := Nat.eq_of_mul_eq_mul_left hpos (by omega)
  have h4 : numel [size] = size := by simp [numel]
  rw [h4] at h3
  have := Nat.eq_one_of_mul_eq_one_left h3
  omega

example : numel [2, 3] ≠ 0 ∧ (2 ≤ 4) ∧ ([0, 1] : List Nat) ≠ [] := by decide

example : axesBefore [2, 3, 4] (-2) = [2] ∧ axesBehind [2, 3, 4] (-2) = [4] := by decide

/-- **C71, the names.** The generated loop reads the variable `index`, whatever the index argument is called, and the
second line assigns to the user's own tensor. -/
theorem C71_names_negative : ∃ before after : Str,
    indexCopyCode py"x" py"(1)" py"idx" py"src" = before ++ indexCopyLoop ++ after ∧
    Str.contains before py"\nx, new_t = x.reshape(" = true ∧
    Str.contains before py"\nindex = " = false ∧ Str.contains indexCopyLoop py"index+len(index)" = true := by
  refine ⟨py"\ntimes, temp_shape, temp_index = paddle.prod(paddle.to_tensor(x.shape[:(1)])), x.shape, idx\nx, new_t = x.reshape([-1] + temp_shape[(1)+1:]), src.reshape([-1] + temp_shape[(1)+1:])\n",
    py"\npaddle.scatter(x, temp_index, new_t).reshape(temp_shape)\n", ?_, ?_, ?_, ?_⟩ <;> decide +kernel

/-! ## C72 -/

/-- **C72.** For all arguments that PyTorch accepts, the code computes `torch.narrow_copy`. -/
theorem C72_narrow_copy {α : Type} (xs : List α) (start length : Int) (h : Spec.NarrowOk xs.length start length) :
    Spec.IsNarrow xs start length (narrowCopy xs start length) := by
  obtain ⟨h1, h2, h3⟩ := h
  have hs : ∃ s : Nat, (s : Int) = if start < 0 then (xs.length : Int) + start else start := by
    refine ⟨(if start < 0 then (xs.length : Int) + start else start).toNat, ?_⟩
    split <;> omega
  obtain ⟨s, hs⟩ := hs
  obtain ⟨n, rfl⟩ : ∃ n : Nat, length = n := ⟨length.toNat, by omega⟩
  rw [← hs] at h3
  have e1 : sliceEnd xs.length (s + n) = s + n := by
    unfold sliceEnd; rw [if_neg (by omega)]; omega
  have e2 : sliceEnd xs.length s = s := by
    unfold sliceEnd; rw [if_neg (by omega)]; omega
  have e : narrowCopy xs start n = (xs.take (s + n)).drop s := by
    unfold narrowCopy
    simp only [← hs, paddleSlice, e1, e2]
  rw [e]
  have hlen : ((xs.take (s + n)).drop s).length = n := by
    rw [List.length_drop, List.length_take]; omega
  refine ⟨s, hs, by rw [hlen], ?_⟩
  intro i hi
  rw [List.getElem?_drop, List.getElem?_take, if_pos (by omega)]

example : Spec.NarrowOk 5 (-3) 2 ∧ narrowCopy [0, 1, 2, 3, 4] (-3) 2 = [2, 3] := by
  constructor
  · unfold Spec.NarrowOk; decide
  · decide

end Verif.Ops
