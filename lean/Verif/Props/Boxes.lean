import Verif.Spec.Boxes
import Verif.Props.Negation
import Mathlib.Data.List.Sort
import Mathlib.Data.List.Flatten
import Mathlib.Data.List.Count
import Mathlib.Algebra.BigOperators.Group.List.Basic

/-! # C94: boxes stay with their image -/

namespace Verif.Boxes
open Verif.Spec.Boxes

variable {B : Type}

/-- The images of the rows. -/
def owners (nums : List Nat) (k : Nat) : List Nat := (nums.zipIdx k).flatMap fun p => List.replicate p.1 p.2

theorem rows_eq (boxes : List B) (nums : List Nat) : rows boxes nums = (owners nums 0).zip boxes := rfl

theorem owners_zero (m k : Nat) : owners (List.replicate m 0) k = [] := by
  induction m generalizing k with
  | zero => rfl
  | succ m ih =>
    rw [List.replicate_succ, owners, List.zipIdx_cons, List.flatMap_cons]
    exact ih (k + 1)

theorem owners_append (a b : List Nat) (k : Nat) : owners (a ++ b) k = owners a k ++ owners b (k + a.length) := by
  rw [owners, List.zipIdx_append, List.flatMap_append]; rfl

theorem owners_list (l : List (List B)) (k : Nat) :
    (owners (l.map List.length) k).zip l.flatten = (l.zipIdx k).flatMap fun p => p.1.map fun b => (p.2, b) := by
  induction l generalizing k with
  | nil => rfl
  | cons x l ih =>
    rw [List.map_cons, owners, List.zipIdx_cons, List.flatMap_cons, List.flatten_cons, List.zip_append (by simp),
      List.zipIdx_cons, List.flatMap_cons]
    refine congrArg₂ _ ?_ (ih (k + 1))
    have : ∀ (y : List B), (List.replicate y.length k).zip y = y.map fun b => (k, b) := by
      intro y
      induction y with
      | nil => rfl
      | cons b y ih => simp [List.replicate_succ, ih]
    exact this x

/-- **C94, a list of tensors.** Every box is used with the image in whose tensor it is, and the rows of the result are in the
order of torchvision. -/
theorem C94_list (n : Nat) (l : List (List B)) :
    rows (convert n (.list l)).1 (convert n (.list l)).2 = wanted (.list l) := by
  rw [rows_eq, convert, owners_append, owners_zero, List.append_nil]
  exact owners_list l 0

theorem owners_range (rows : List Nat) (m k : Nat) :
    owners ((List.range' k m).map fun i => rows.count i) k =
      (List.range' k m).flatMap fun i => List.replicate (rows.count i) i := by
  induction m generalizing k with
  | zero => rfl
  | succ m ih =>
    rw [List.range'_succ, List.map_cons, owners, List.zipIdx_cons, List.flatMap_cons, List.flatMap_cons]
    exact congrArg _ (ih (k + 1))

theorem sorted_blocks (c : Nat → Nat) (m k : Nat) :
    ((List.range' k m).flatMap fun i => List.replicate (c i) i).Pairwise (· ≤ ·) ∧
      ∀ x ∈ (List.range' k m).flatMap fun i => List.replicate (c i) i, k ≤ x := by
  induction m generalizing k with
  | zero => simp
  | succ m ih =>
    rw [List.range'_succ, List.flatMap_cons]
    obtain ⟨h1, h2⟩ := ih (k + 1)
    refine ⟨List.pairwise_append.2 ⟨List.pairwise_replicate.2 (Or.inr le_rfl), h1, ?_⟩, ?_⟩
    · intro x hx y hy
      rw [List.eq_of_mem_replicate hx]
      exact (Nat.le_succ k).trans (h2 y hy)
    · intro x hx
      rcases List.mem_append.1 hx with hx | hx
      · rw [List.eq_of_mem_replicate hx]
      · exact (Nat.le_succ k).trans (h2 x hx)

theorem sum_single (l : List Nat) (a c : Nat) : (l.map fun i => if i = a then c else 0).sum = l.count a * c := by
  induction l with
  | nil => simp
  | cons x l ih =>
    rw [List.map_cons, List.sum_cons, ih, List.count_cons]
    by_cases h : x = a <;> simp [h, Nat.add_mul, Nat.add_comm]

theorem perm_blocks {l : List Nat} {n : Nat} (h : ∀ i ∈ l, i < n) :
    ((List.range' 0 n).flatMap fun i => List.replicate (l.count i) i).Perm l := by
  rw [List.perm_iff_count]
  intro a
  rw [List.count_flatMap]
  by_cases ha : a < n
  · have : (List.range' 0 n).map (List.count a ∘ fun i => List.replicate (l.count i) i) =
        (List.range' 0 n).map fun i => if i = a then l.count a else 0 := by
      refine List.map_congr_left fun i _ => ?_
      simp only [Function.comp, List.count_replicate, beq_iff_eq]
      split
      · next e => rw [e]
      · rfl
    rw [this, sum_single]
    have : List.count a (List.range' 0 n) = 1 :=
      List.count_eq_one_of_mem (List.nodup_range' (step := 1)) (by simp [List.mem_range'_1, ha])
    rw [this, one_mul]
  · rw [List.count_eq_zero.2 (fun hm => ha (h a hm))]
    refine List.sum_eq_zero fun x hx => ?_
    obtain ⟨i, hi, rfl⟩ := List.mem_map.1 hx
    have : i < n := by simpa [List.mem_range'_1] using hi
    simp only [Function.comp, List.count_replicate, beq_iff_eq]
    rw [if_neg (by omega)]

/-- The images for which Paddle uses the rows of a tensor: the ones in the first column, sorted. -/
theorem owners_tensor {n : Nat} {r : List (Nat × B)} (h : ∀ x ∈ r, x.1 < n) :
    (owners (convert n (.tensor r)).2 0).Perm (r.map Prod.fst) ∧ (owners (convert n (.tensor r)).2 0).Pairwise (· ≤ ·) := by
  have e : owners (convert n (.tensor r)).2 0 = (List.range' 0 n).flatMap fun i => List.replicate ((r.map Prod.fst).count i) i := by
    rw [← owners_range, convert]
    simp only [List.range_eq_range', List.count, List.countP_map]
    rfl
  rw [e]
  refine ⟨perm_blocks fun i hi => ?_, (sorted_blocks _ _ _).1⟩
  obtain ⟨x, hx, rfl⟩ := List.mem_map.1 hi
  exact h x hx

/-- **C94, a tensor with five columns.** The result is that of torchvision exactly if the rows are sorted by the number of
the image. -/
theorem C94_tensor_partial {n : Nat} {r : List (Nat × B)} (h : ∀ x ∈ r, x.1 < n) :
    rows (convert n (.tensor r)).1 (convert n (.tensor r)).2 = wanted (.tensor r) ↔ r.Pairwise fun x y => x.1 ≤ y.1 := by
  obtain ⟨hp, hs⟩ := owners_tensor h
  have hl : (owners (convert n (.tensor r)).2 0).length = r.length := by rw [hp.length_eq, List.length_map]
  have hz : rows (convert n (.tensor r)).1 (convert n (.tensor r)).2 = wanted (.tensor r) ↔
      owners (convert n (.tensor r)).2 0 = r.map Prod.fst := by
    rw [rows_eq]
    constructor
    · intro e
      have := congrArg (List.map Prod.fst) e
      rwa [List.map_fst_zip (by rw [hl]; simp [convert])] at this
    · intro e
      rw [e]
      show (r.map Prod.fst).zip (r.map Prod.snd) = r
      exact (List.zip_of_prod rfl rfl).symm
  rw [hz]
  constructor
  · intro e
    rw [e, List.pairwise_map] at hs
    exact hs
  · intro hr
    exact hp.eq_of_pairwise (fun a b _ _ h1 h2 => le_antisymm h1 h2) hs (List.pairwise_map.2 hr)

/-- The number of rows is right in every case. -/
theorem C94_row_count {n : Nat} {r : List (Nat × B)} (h : ∀ x ∈ r, x.1 < n) :
    (convert n (.tensor r)).2.sum = r.length := by
  have hp := (owners_tensor h).1.length_eq
  rw [List.length_map] at hp
  rw [← hp]
  generalize (convert n (.tensor r)).2 = nums
  generalize 0 = k
  induction nums generalizing k with
  | nil => rfl
  | cons x l ih =>
    rw [List.sum_cons, owners, List.zipIdx_cons, List.flatMap_cons, List.length_append, List.length_replicate]
    exact congrArg _ (ih (k + 1))

/-- Paddle gets one number of boxes for each image. -/
theorem C94_numbers {n : Nat} {a : Arg B} (h : ∀ l, a = .list l → l.length ≤ n) : (convert n a).2.length = n := by
  cases a with
  | list l =>
    have := h l rfl
    simp only [convert, List.length_append, List.length_map, List.length_replicate]
    omega
  | tensor r => simp [convert]

/-- **C94 fails** for rows that are not sorted: two boxes, the first for the second image. Each is used with the other image. -/
theorem C94_tensor_negative (a b : B) :
    rows (convert 2 (.tensor [(1, a), (0, b)])).1 (convert 2 (.tensor [(1, a), (0, b)])).2 = [(0, a), (1, b)] ∧
      wanted (.tensor [(1, a), (0, b)]) = [(1, a), (0, b)] := ⟨rfl, rfl⟩

example : wanted (.list [[1, 2], [], [3]]) = [(0, 1), (0, 2), (2, 3)] ∧ convert 3 (.tensor [(0, 1), (0, 2), (2, 3)]) = ([1, 2, 3], [2, 0, 1]) :=
  by decide

end Verif.Boxes

namespace Verif.Template
open Verif Verif.Spec

set_option maxRecDepth 100000 in
/-- **C94 fails** for `roi_align` without `aligned`: the code does not name it, and it is False by default in torchvision and True
by default in Paddle, so that all boxes are moved by half a pixel. -/
theorem C94_aligned_negative : ∃ r ∈ Data.apiTable, r.name = py"torchvision.ops.roi_align" ∧ r.class = py"BoxesConvertMatcher" ∧
    ∃ c ps, c.args = [(py"input", py"x"), (py"boxes", py"b"), (py"output_size", py"(5)")] ∧ Valid r c ∧
    Converts r c (.code ps) ∧ Spec.print c.args c.recv c.fresh ps =
      py"\nroi_align(input=x, boxes=b, output_size=(5))\n" := becomesBy_sound (by decide +kernel)

end Verif.Template
