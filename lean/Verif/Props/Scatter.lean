import Verif.Model.Scatter
import Verif.Spec.Scatter
import Verif.Props.Negation

/-! # C96: reduce_scatter_tensor -/

namespace Verif.Scatter
open Verif.Spec.Scatter

variable {α : Type}

theorem split_mul {k m : Nat} (hk : k ≠ 0) {l : List α} (h : l.length = k * m) :
    split k l = some ((List.range k).map fun i => (l.drop (i * m)).take m) := by
  rw [split, if_neg (by simp [hk, h]), h, Nat.mul_div_cancel_left _ (Nat.pos_of_ne_zero hk)]

theorem parts_mul {k m : Nat} (hk : k ≠ 0) {l : List α} (h : l.length = k * m) :
    parts k l = some ((List.range k).map fun i => (l.drop (i * m)).take m) := by
  unfold parts
  split
  · next e =>
    have hm : m = 1 := by
      rw [e] at h
      exact (Nat.eq_of_mul_eq_mul_left (Nat.pos_of_ne_zero hk) (by rw [← h, Nat.mul_one])).symm
    subst hm
    congr 1
    refine List.ext_getElem (by simp [e]) fun i h1 h2 => ?_
    simp only [List.getElem_map, List.getElem_range, Nat.mul_one]
    rw [List.length_map] at h1
    rw [List.drop_eq_getElem_cons h1]
    rfl
  · exact split_mul hk h

theorem foldl_zipWith_length (f : α → α → α) {m : Nat} {x : List α} (hx : x.length = m) {l : List (List α)}
    (h : ∀ y ∈ l, y.length = m) : (l.foldl (List.zipWith f) x).length = m := by
  induction l generalizing x with
  | nil => exact hx
  | cons y l ih =>
    refine ih ?_ fun z hz => h z (List.mem_cons_of_mem _ hz)
    rw [List.length_zipWith, hx, h y (List.mem_cons_self ..), Nat.min_self]

theorem foldl_zipWith_get (f : α → α → α) {m i : Nat} {x : List α} {a : α} (hx : x[i]? = some a) {l : List (List α)}
    (hi : i < m) (h : ∀ y ∈ l, y.length = m) :
    (l.foldl (List.zipWith f) x)[i]? = some ((l.filterMap fun y => y[i]?).foldl f a) := by
  induction l generalizing x a with
  | nil => exact hx
  | cons y l ih =>
    have hy : i < y.length := by rw [h y (List.mem_cons_self ..)]; exact hi
    have := ih (x := List.zipWith f x y) (a := f a y[i])
      (by rw [List.getElem?_zipWith, hx, List.getElem?_eq_getElem hy]) fun z hz => h z (List.mem_cons_of_mem _ hz)
    rw [List.foldl_cons, this, List.filterMap_cons_some (f := fun y => y[i]?) (b := y[i]) (List.getElem?_eq_getElem hy), List.foldl_cons]

theorem mapM_some {β γ : Type} {f : β → Option γ} {g : β → γ} {l : List β} (h : ∀ x ∈ l, f x = some (g x)) :
    l.mapM f = some (l.map g) := by
  induction l with
  | nil => rfl
  | cons x l ih =>
    rw [List.mapM_cons, h x (List.mem_cons_self ..), ih fun y hy => h y (List.mem_cons_of_mem _ hy)]
    rfl

theorem reduceScatter_parts {world m : Nat} {inputs : List (List α)} (hw : world ≠ 0) (h : ∀ l ∈ inputs, l.length = world * m)
    (op : Option (α → α → α)) (a : Option Bool) : reduceScatter world inputs op a =
    (paddleReduceScatter op (inputs.map fun l => (List.range world).map fun i => (l.drop (i * m)).take m)).map
      fun o => ⟨o, syncOp a, false⟩ := by
  rw [reduceScatter, mapM_some fun l hl => parts_mul hw (h l hl)]
  rfl

/-- **C96.** In the group of all processes, with an operation, every process gets its rows of the combined inputs. -/
theorem C96_world_partial {f : α → α → α} {m : Nat} {inputs : List (List α)} (hi : inputs ≠ [])
    (h : ∀ l ∈ inputs, l.length = inputs.length * m) (a : Option Bool) :
    ∃ e, reduceScatter inputs.length inputs (some f) a = some e ∧ Scattered f m inputs e.outputs := by
  have hw : inputs.length ≠ 0 := by simpa using hi
  rw [reduceScatter_parts hw h, paddleReduceScatter, if_pos (by
    rw [List.all_eq_true]
    intro l hl
    obtain ⟨x, -, rfl⟩ := List.mem_map.1 hl
    simp)]
  refine ⟨_, rfl, by simp, ?_⟩
  intro r o ho
  rw [List.length_map, List.getElem?_map] at ho
  obtain ⟨r', hr', rfl⟩ := Option.map_eq_some_iff.1 ho
  obtain ⟨hr, hrr⟩ := List.getElem?_eq_some_iff.1 hr'
  rw [List.getElem_range] at hrr
  subst hrr
  rw [List.length_range] at hr
  have hg : ∀ l ∈ inputs, ((List.range inputs.length).map fun i => (l.drop (i * m)).take m).getD r [] =
      (l.drop (r * m)).take m := fun l _ => by
    rw [List.getD_eq_getElem?_getD, List.getElem?_map, List.getElem?_range hr]; rfl
  have hrm : (r + 1) * m ≤ inputs.length * m := Nat.mul_le_mul_right _ hr
  rw [Nat.add_mul, Nat.one_mul] at hrm
  rw [List.map_map, show (inputs.map ((fun l => l.getD r []) ∘ fun l => (List.range inputs.length).map
    fun i => (l.drop (i * m)).take m)) = inputs.map fun l => (l.drop (r * m)).take m from List.map_congr_left hg]
  have hlen : ∀ l ∈ inputs, ((l.drop (r * m)).take m).length = m := fun l hl => by
    rw [List.length_take, List.length_drop, h l hl]; omega
  have hget : ∀ l : List α, ∀ i, i < m → ((l.drop (r * m)).take m)[i]? = l[r * m + i]? := fun l i hi => by
    rw [List.getElem?_take_of_lt hi, List.getElem?_drop]
  clear hg hr' ho
  match inputs, hi with
  | x :: l, _ =>
    have hx := hlen x (List.mem_cons_self ..)
    have hl : ∀ y ∈ l.map fun l => (l.drop (r * m)).take m, y.length = m := fun y hy => by
      obtain ⟨z, hz, rfl⟩ := List.mem_map.1 hy
      exact hlen z (List.mem_cons_of_mem _ hz)
    rw [List.map_cons, combine]
    refine ⟨foldl_zipWith_length f hx hl, fun i hi => ?_⟩
    obtain ⟨v, hv⟩ : ∃ v, x[r * m + i]? = some v := ⟨_, List.getElem?_eq_getElem (by
      rw [h x (List.mem_cons_self ..)]; omega)⟩
    rw [foldl_zipWith_get f ((hget x i hi).trans hv) hi hl, rows, List.filterMap_cons_some (f := fun l => l[r * m + i]?) hv, List.filterMap_map]
    simp only [List.head?_cons, Option.map_some, List.tail_cons]
    congr 3
    funext y
    exact hget y i hi

/-- **C96 fails** in every group that is not the group of all processes: the inputs are cut into as many parts as there are
processes, and not into as many as the group has. -/
theorem C96_group_negative {world : Nat} {inputs : List (List α)} (hi : inputs ≠ []) (hg : inputs.length ≠ world)
    (op : Option (α → α → α)) (a : Option Bool) : reduceScatter world inputs op a = none := by
  have hp : ∀ l : List α, ∀ p, parts world l = some p → p.length = world := by
    intro l p h
    unfold parts at h
    split at h
    · next e => cases h; simpa using e
    · unfold split at h
      split at h
      · cases h
      · cases h; simp
  have hm : ∀ (ins : List (List α)) ls, ins.mapM (parts world) = some ls → ls.length = ins.length ∧ ∀ l ∈ ls, l.length = world := by
    intro ins
    induction ins with
    | nil => intro ls h; cases h; simp
    | cons x ins ih =>
      intro ls h
      rw [List.mapM_cons] at h
      obtain ⟨p, hp', h⟩ := Option.bind_eq_some_iff.1 h
      obtain ⟨ps, hps, h⟩ := Option.bind_eq_some_iff.1 h
      cases h
      obtain ⟨h1, h2⟩ := ih ps hps
      refine ⟨by simp [h1], fun l hl => ?_⟩
      rcases List.mem_cons.1 hl with rfl | hl
      · exact hp x _ hp'
      · exact h2 l hl
  rw [reduceScatter]
  match hl : inputs.mapM (parts world) with
  | none => rfl
  | some ls =>
    obtain ⟨h1, h2⟩ := hm inputs ls hl
    have : paddleReduceScatter op ls = none := by
      unfold paddleReduceScatter
      cases op with
      | none => rfl
      | some f =>
        refine if_neg ?_
        rw [List.all_eq_true]
        intro hall
        match ls, h1 with
        | [], h1 => exact hi (List.length_eq_zero_iff.1 h1.symm)
        | p :: ps, h1 =>
          have e := hall p (List.mem_cons_self ..)
          rw [beq_iff_eq, h2 p (List.mem_cons_self ..), h1] at e
          exact hg e.symm
    rw [Option.bind_some, this]
    rfl

/-- **C96 fails** without an operation: PyTorch adds, the code raises an exception. -/
theorem C96_operation_negative (world : Nat) (inputs : List (List α)) (a : Option Bool) : reduceScatter world inputs none a = none := by
  rw [reduceScatter]
  cases inputs.mapM (parts world) <;> rfl

/-- **C96 fails** for the time: without `async_op` PyTorch waits until the output is there, the code does not; with
`async_op=True` PyTorch gives a handle for waiting, the code gives None. -/
theorem C96_wait_negative {world : Nat} {inputs : List (List α)} {op : Option (α → α → α)} {e : Effect α} :
    (reduceScatter world inputs op none = some e → e.waits = false) ∧
      (reduceScatter world inputs op (some true) = some e → e.waits = false ∧ e.handle = false) := by
  constructor <;> intro h <;> rw [reduceScatter] at h <;> obtain ⟨l, -, h⟩ := Option.bind_eq_some_iff.1 h <;>
    obtain ⟨o, -, rfl⟩ := Option.map_eq_some_iff.1 h
  · rfl
  · exact ⟨rfl, rfl⟩

/-- Two processes with four rows each. -/
example : (reduceScatter 2 [[1, 2, 3, 4], [10, 20, 30, 40]] (some (· + ·)) (some false)).map (fun e => (e.outputs, e.waits)) =
    some ([[11, 22], [33, 44]], true) := by decide

end Verif.Scatter

namespace Verif.Template
open Verif Verif.Spec

set_option maxRecDepth 100000 in
/-- The call that is written if neither `op` nor `async_op` is given, with None for both. -/
theorem C96_default_call : ∃ r ∈ Data.apiTable, r.name = py"torch.distributed.reduce_scatter_tensor" ∧
    r.class = py"ReduceScatterTensorMatcher" ∧ ∃ c ps, c.args = [(py"output", py"o"), (py"input", py"i")] ∧ Valid r c ∧
    Converts r c (.code ps) ∧ Spec.print c.args c.recv c.fresh ps =
      py"\nreduce_scatter_tensor(o,i,None,None,None)\n" := becomesBy_sound (by decide +kernel)

end Verif.Template
