import Verif.Spec.Scope
import Mathlib.Data.List.Basic
import Mathlib.Data.List.Nodup

/-!
# C36-C39: traversal, scopes and inserted lines
-/

namespace Verif.Scope
open Verif

/-! ## C36 -/

section
variable {α : Type}

theorem insertLines_eq (body : List α) (i : Nat) (lines : List α) :
    insertLines body i lines = body.take i ++ (lines ++ body.drop i) ∨ body.length < i := by
  by_cases h : i ≤ body.length
  · left
    unfold insertLines
    rw [List.foldl_reverse]
    induction lines with
    | nil => simp
    | cons x xs ih =>
      rw [List.foldr_cons, ih]
      have e : (body.take i).length = i := by simp [h]
      unfold insertAt
      rw [List.take_append_of_le_length (by omega), List.drop_append_of_le_length (by omega)]
      rw [List.take_of_length_le (by omega), List.drop_of_length_le (by omega)]
      simp
  · right; omega

theorem spliced_append (a b : List α) (f : Nat → List α) (k : Nat) :
    spliced (a ++ b) f k = spliced a f k ++ spliced b f (k + a.length) := by
  induction a generalizing k with
  | nil => simp [spliced]
  | cons x a ih => simp [spliced, ih, Nat.add_assoc, Nat.add_comm 1]

theorem spliced_congr (a : List α) (f g : Nat → List α) (k : Nat)
    (h : ∀ i, k ≤ i → i < k + a.length → f i = g i) : spliced a f k = spliced a g k := by
  induction a generalizing k with
  | nil => rfl
  | cons x a ih =>
    simp only [spliced]
    rw [h k (by omega) (by simp), ih (k + 1) (fun i h1 h2 => h i (by omega) (by simp; omega))]

theorem spliced_none (a : List α) (f : Nat → List α) (k : Nat)
    (h : ∀ i, k ≤ i → f i = []) : spliced a f k = a := by
  induction a generalizing k with
  | nil => rfl
  | cons x a ih => simp [spliced, h k (Nat.le_refl _), ih (k + 1) (fun i h1 => h i (by omega))]

/-- The lines recorded at an index. -/
def linesAt (d : Dict Nat (List α)) (i : Nat) : List α := (d.get? i).getD []

theorem linesAt_of_forall_lt (d : Dict Nat (List α)) (n : Nat) (h : ∀ kv ∈ d, kv.1 < n) (i : Nat) (hi : n ≤ i) :
    linesAt d i = [] := by
  unfold linesAt
  rw [Dict.get?_eq_none_iff.2]; rfl
  intro hk
  obtain ⟨kv, hkv, e⟩ := List.mem_map.1 hk
  have := h kv hkv; omega

theorem foldl_small (L : Dict Nat (List α)) (hs : L.Pairwise fun a b => b.1 < a.1) (pre suf : List α)
    (hk : ∀ kv ∈ L, kv.1 < pre.length) :
    L.foldl (fun b kv => insertLines b kv.1 kv.2) (pre ++ suf) = spliced pre (linesAt L) 0 ++ suf := by
  induction L generalizing pre suf with
  | nil => rw [spliced_none]; rfl; intros; rfl
  | cons x L ih =>
    obtain ⟨i, ls⟩ := x
    rw [List.pairwise_cons] at hs
    have hi : i < pre.length := hk (i, ls) (by simp)
    have hlt : ∀ kv ∈ L, kv.1 < i := fun kv h => hs.1 kv h
    simp only [List.foldl_cons]
    rcases insertLines_eq (pre ++ suf) i ls with e | e
    · rw [e, List.take_append_of_le_length (by omega), List.drop_append_of_le_length (by omega)]
      rw [ih hs.2 (pre.take i) _ (fun kv h => by have := hlt kv h; simp; omega)]
      conv_rhs => rw [← List.take_append_drop i pre, spliced_append]
      have hl : (pre.take i).length = i := by simp; omega
      rw [spliced_congr (pre.take i) (linesAt ((i, ls) :: L)) (linesAt L) 0]
      · rw [hl, Nat.zero_add]
        have hd : pre.drop i ≠ [] := by simp; omega
        obtain ⟨s, q, hsq⟩ := List.exists_cons_of_ne_nil hd
        rw [hsq]
        simp only [spliced]
        have h1 : linesAt ((i, ls) :: L) i = ls := by simp [linesAt, Dict.get?]
        rw [h1, spliced_none q]
        · simp
        · intro j hj
          apply linesAt_of_forall_lt _ (i + 1) _ _ hj
          intro kv hkv
          rcases List.mem_cons.1 hkv with rfl | hkv
          · exact Nat.lt_succ_self _
          · have := hlt kv hkv; omega
      · intro j _ hj
        have : i ≠ j := by omega
        simp [linesAt, Dict.get?, this]
    · simp at e; omega

theorem insertLines_big (pre suf : List α) (i : Nat) (ls : List α) (h : pre.length ≤ i) :
    ∃ suf', insertLines (pre ++ suf) i ls = pre ++ suf' := by
  unfold insertLines
  generalize ls.reverse = r
  induction r generalizing suf with
  | nil => exact ⟨suf, rfl⟩
  | cons x r ih =>
    simp only [List.foldl_cons]
    have : insertAt (pre ++ suf) i x = pre ++ (suf.take (i - pre.length) ++ x :: suf.drop (i - pre.length)) := by
      unfold insertAt
      rw [List.take_append, List.drop_append, List.take_of_length_le h, List.drop_of_length_le h]
      simp
    rw [this]; exact ih _

theorem foldl_big (L : Dict Nat (List α)) (pre suf : List α) (hk : ∀ kv ∈ L, pre.length ≤ kv.1) :
    ∃ suf', L.foldl (fun b kv => insertLines b kv.1 kv.2) (pre ++ suf) = pre ++ suf' := by
  induction L generalizing suf with
  | nil => exact ⟨suf, rfl⟩
  | cons x L ih =>
    simp only [List.foldl_cons]
    obtain ⟨s, hs⟩ := insertLines_big pre suf x.1 x.2 (hk x (by simp))
    rw [hs]; exact ih s (fun kv h => hk kv (by simp [h]))

theorem sorted_desc (d : Dict Nat (List α)) (hd : d.WF) :
    (d.mergeSort fun a b => decide (b.1 ≤ a.1)).Pairwise fun a b => b.1 < a.1 := by
  have h1 := List.pairwise_mergeSort (le := fun (a b : Nat × List α) => decide (b.1 ≤ a.1))
    (fun a b c h h' => by simp at *; omega) (fun a b => by simp; omega) d
  have hp : (d.mergeSort fun a b => decide (b.1 ≤ a.1)).Perm d := List.mergeSort_perm _ _
  have h2 : (d.mergeSort fun a b => decide (b.1 ≤ a.1)).Pairwise fun a b => a.1 ≠ b.1 := by
    have : ((d.mergeSort fun a b => decide (b.1 ≤ a.1)).map Prod.fst).Nodup := (hp.map Prod.fst).nodup_iff.2 hd
    rwa [List.Nodup, List.pairwise_map] at this
  exact (h1.and h2).imp fun h => by simp at h; omega

theorem get?_perm {β : Type} {a b : Dict Nat β} (h : a.Perm b) (hb : b.WF) (i : Nat) : a.get? i = b.get? i := by
  have ha : a.WF := (h.map Prod.fst).nodup_iff.2 hb
  cases hg : b.get? i with
  | some v => exact Dict.get?_of_mem ha (h.mem_iff.2 (Dict.mem_of_get? hg))
  | none =>
    rw [Dict.get?_eq_none_iff] at hg ⊢
    intro hm; exact hg ((h.map Prod.fst).mem_iff.1 hm)

theorem split_desc (L : Dict Nat (List α)) (hs : L.Pairwise fun a b => b.1 < a.1) (n : Nat) :
    ∃ A B, L = A ++ B ∧ (∀ kv ∈ A, n ≤ kv.1) ∧ ∀ kv ∈ B, kv.1 < n := by
  induction L with
  | nil => exact ⟨[], [], rfl, by simp, by simp⟩
  | cons x L ih =>
    rw [List.pairwise_cons] at hs
    by_cases h : n ≤ x.1
    · obtain ⟨A, B, e, ha, hb⟩ := ih hs.2
      refine ⟨x :: A, B, by simp [e], ?_, hb⟩
      intro kv hkv
      rcases List.mem_cons.1 hkv with rfl | hkv
      · exact h
      · exact ha kv hkv
    · refine ⟨[], x :: L, rfl, by simp, ?_⟩
      intro kv hkv
      rcases List.mem_cons.1 hkv with rfl | hkv
      · omega
      · have := hs.1 kv hkv; omega

/-- **C36**, general form. For every block and every record, the first statements of the block are preceded by exactly the
lines recorded for them, whatever was recorded for later indices. -/
theorem C36_insert_prefix (pre suf : List α) (d : Dict Nat (List α)) (hd : d.WF) :
    ∃ rest, insertScope (pre ++ suf) d = spliced pre (linesAt d) 0 ++ rest := by
  have hs := sorted_desc d hd
  have hp : (d.mergeSort fun a b => decide (b.1 ≤ a.1)).Perm d := List.mergeSort_perm _ _
  unfold insertScope
  generalize hL : (d.mergeSort fun a b => decide (b.1 ≤ a.1)) = L at hs hp
  obtain ⟨A, B, e, ha, hb⟩ := split_desc L hs pre.length
  rw [e, List.foldl_append]
  obtain ⟨s, hsuf⟩ := foldl_big A pre suf ha
  rw [hsuf]
  rw [e, List.pairwise_append] at hs
  rw [foldl_small B hs.2.1 pre s hb]
  refine ⟨s, ?_⟩
  congr 1
  apply spliced_congr
  intro i _ hi
  have hg := get?_perm hp hd i
  unfold linesAt
  rw [← hg, e]
  congr 1
  cases hB : Dict.get? B i with
  | some v =>
    have hw : (A ++ B : Dict Nat (List α)).WF := by rw [← e]; exact (hp.map Prod.fst).nodup_iff.2 hd
    exact (Dict.get?_of_mem hw (List.mem_append_right _ (Dict.mem_of_get? hB))).symm
  | none =>
    symm
    rw [Dict.get?_eq_none_iff] at hB ⊢
    rw [Dict.keys_append, List.mem_append]
    rintro (h | h)
    · obtain ⟨kv, hkv, e2⟩ := List.mem_map.1 h
      have := ha kv hkv; omega
    · exact hB h

/-- **C36.** For every block and every record of lines for its statements, the block after the insertion consists of the
original statements in their order, each directly preceded by the lines recorded for it in the order in which they were
recorded, and nothing else. -/
theorem C36_insert (body : List α) (d : Dict Nat (List α)) (hd : d.WF) (hk : ∀ i ∈ d.keys, i < body.length) :
    insertScope body d = spliced body (linesAt d) 0 := by
  have hs := sorted_desc d hd
  have hp : (d.mergeSort fun a b => decide (b.1 ≤ a.1)).Perm d := List.mergeSort_perm _ _
  unfold insertScope
  generalize hL : (d.mergeSort fun a b => decide (b.1 ≤ a.1)) = L at hs hp
  have := foldl_small L hs body [] (fun kv h => hk _ (List.mem_map.2 ⟨kv, hp.mem_iff.1 h, rfl⟩))
  rw [List.append_nil, List.append_nil] at this
  rw [this]
  apply spliced_congr
  intro i _ _
  unfold linesAt
  rw [get?_perm hp hd]

example : insertScope [10, 20, 30] [(2, [5, 6]), (0, [1])] = [1, 10, 20, 5, 6, 30] := by
  rw [C36_insert _ _ (by simp [Dict.WF, Dict.keys]) (by decide)]; rfl

theorem linesAt_cons_ne {k i : Nat} (ls : List α) (d : Dict Nat (List α)) (h : k ≠ i) :
    linesAt ((k, ls) :: d) i = linesAt d i := by simp [linesAt, Dict.get?, h]

theorem passDict_get (b : List (Visited α)) (k i : Nat) :
    linesAt (((b.zipIdx k).filter fun v => !v.1.lines.isEmpty).map fun v => (v.2, v.1.lines)) (k + i) =
      ((b[i]?).map (·.lines)).getD [] := by
  induction b generalizing k i with
  | nil => simp [linesAt]
  | cons v b ih =>
    rw [List.zipIdx_cons, List.filter_cons]
    cases i with
    | zero =>
      by_cases h : v.lines = []
      · simp only [h, List.isEmpty_nil, Bool.not_true, Bool.false_eq_true, if_false]
        simp only [Nat.add_zero, List.getElem?_cons_zero, Option.map_some, Option.getD_some, h]
        unfold linesAt
        rw [Dict.get?_eq_none_iff.2]; rfl
        intro hk
        simp only [Dict.keys, List.map_map, List.mem_map, List.mem_filter] at hk
        obtain ⟨⟨x, j⟩, ⟨h1, _⟩, h3⟩ := hk
        have := List.le_snd_of_mem_zipIdx h1
        simp at h3 this; omega
      · have : (!v.lines.isEmpty) = true := by cases hv : v.lines <;> simp_all
        simp [this, linesAt, Dict.get?]
    | succ i =>
      have hi := ih (k + 1) i
      rw [show k + (i + 1) = k + 1 + i by omega]
      split
      · rw [List.map_cons]
        rw [linesAt_cons_ne _ _ (by omega), hi]; simp
      · rw [hi]; simp

theorem passDict_wf (b : List (Visited α)) (k : Nat) :
    Dict.WF (((b.zipIdx k).filter fun v => !v.1.lines.isEmpty).map fun v => (v.2, v.1.lines)) := by
  unfold Dict.WF Dict.keys
  rw [List.map_map]
  have : (List.map (Prod.fst ∘ fun v : Visited α × Nat => (v.2, v.1.lines))
      ((b.zipIdx k).filter fun v => !v.1.lines.isEmpty)).Sublist ((b.zipIdx k).map Prod.snd) := by
    exact (List.filter_sublist).map _
  apply this.nodup
  rw [List.zipIdx_map_snd]
  exact List.nodup_range'

theorem spliced_pass (b q : List (Visited α)) (k : Nat) (f : Nat → List α) (h : ∀ v ∈ b, v.new.length = 1)
    (hf : ∀ i, f (k + i) = (((b ++ q)[i]?).map (·.lines)).getD []) :
    spliced (b.flatMap (·.new)) f k = b.flatMap fun v => v.lines ++ v.new := by
  induction b generalizing k with
  | nil => rfl
  | cons v b ih =>
    obtain ⟨x, hx⟩ := List.length_eq_one_iff.1 (h v (by simp))
    simp only [List.flatMap_cons, hx, List.singleton_append, spliced]
    rw [ih (k + 1) (fun w hw => h w (by simp [hw]))]
    · have := hf 0
      simp only [Nat.add_zero, List.cons_append, List.getElem?_cons_zero, Option.map_some, Option.getD_some] at this
      rw [this]; simp
    · intro i
      have := hf (i + 1)
      rw [show k + 1 + i = k + (i + 1) by omega, this]; simp

/-- **C36** for a whole pass over a block, partial: as long as each statement of the first part `b` of a block is replaced by exactly one
statement, each of them has its lines directly before it, whatever happens to the later statements `q`. The full claim is about
every block; it is false, see `C36_removed_negative`. -/
theorem C36_pass_partial (b q : List (Visited α)) (h : ∀ v ∈ b, v.new.length = 1) :
    ∃ rest, passBlock (b ++ q) = (b.flatMap fun v => v.lines ++ v.new) ++ rest := by
  unfold passBlock
  rw [List.flatMap_append]
  obtain ⟨rest, hr⟩ := C36_insert_prefix (b.flatMap (·.new)) (q.flatMap (·.new)) _ (passDict_wf (b ++ q) 0)
  refine ⟨rest, ?_⟩
  rw [hr, spliced_pass b q 0 _ h]
  intro i
  exact passDict_get (b ++ q) 0 i

/-- **C36** for a block in which no statement is removed: the result is the new statements with their lines directly before
them and nothing else. -/
theorem C36_pass_whole (b : List (Visited α)) (h : ∀ v ∈ b, v.new.length = 1) :
    passBlock b = b.flatMap fun v => v.lines ++ v.new := by
  unfold passBlock
  have hl : (b.flatMap (·.new)).length = b.length := by
    induction b with
    | nil => rfl
    | cons v b ih => simp [h v (by simp), ih (fun w hw => h w (by simp [hw]))]; omega
  rw [C36_insert _ _ (passDict_wf b 0), spliced_pass b [] 0 _ h]
  · intro i; rw [List.append_nil]; exact passDict_get b 0 i
  · intro i hi
    simp only [Dict.keys, List.map_map, List.mem_map, List.mem_filter] at hi
    obtain ⟨⟨x, j⟩, ⟨h1, _⟩, h3⟩ := hi
    have := List.snd_lt_of_mem_zipIdx h1
    simp at h3 this; omega

example : passBlock [⟨1, [10], [7]⟩, ⟨2, [20], [8, 9]⟩, ⟨3, [30], []⟩] = [7, 10, 8, 9, 20, 30] := by
  rw [C36_pass_whole _ (by decide)]; rfl

/-- **C36 is false for a pass as a whole.** If an earlier statement of the block is removed during the pass (a call that has no
Paddle counterpart and is just deleted, basic_transformer.py:841-848), the lines recorded for a later statement come after
it. Here statement 1 is removed and 5 is a helper line for 20, which is the rewritten second statement. -/
theorem C36_removed_negative :
    ¬ ∀ (b : List (Visited Nat)) (v : Visited Nat), v ∈ b → ∀ u, v.new = [u] →
        ∃ x y, passBlock b = x ++ (v.lines ++ u :: y) := by
  intro h
  obtain ⟨x, y, e⟩ := h [⟨1, [], []⟩, ⟨2, [20], [5]⟩, ⟨3, [30], []⟩] ⟨2, [20], [5]⟩ (by simp) 20 rfl
  have hb : passBlock [⟨1, [], []⟩, ⟨2, [20], [5]⟩, ⟨3, [30], []⟩] = [20, 5, 30] := by
    simp [passBlock, insertScope, insertLines, insertAt, List.zipIdx]
  rw [hb] at e
  rcases x with _ | ⟨a, _ | ⟨b, _ | ⟨c, x⟩⟩⟩ <;> simp at e

end

/-! ## C37 -/

section
variable {κ α δ : Type} [DecidableEq κ] [DecidableEq δ]

/-- The recording history: the calls of `record_scope` in order. -/
def history (dump : α → δ) (d : Dict κ (List α)) (calls : List (κ × List α)) : Dict κ (List α) :=
  calls.foldl (fun d c => record dump d c.1 c.2) d

/-- The recorded lines of a position. -/
def recorded (d : Dict κ (List α)) (p : κ) : List α := (d.get? p).getD []

theorem recorded_record (dump : α → δ) (d : Dict κ (List α)) (pos : κ) (lines : List α) (p : κ) :
    recorded (record dump d pos lines) p = if pos = p then
      recorded d p ++ lines.filter fun n => !((recorded d p).any fun e => decide (dump n = dump e)) else recorded d p := by
  unfold record
  by_cases hl : lines.isEmpty = true
  · have : lines = [] := by simpa using hl
    subst this; simp
  · rw [if_neg hl]
    by_cases hp : pos = p
    · subst hp
      rw [if_pos rfl]
      cases hd : d.get? pos with
      | some old => simp [recorded, hd]
      | none => simp [recorded, hd]
    · rw [if_neg hp]
      cases hd : d.get? pos with
      | some old => simp [recorded, Dict.get?_set_ne _ hp]
      | none => simp [recorded, Dict.get?_set_ne _ hp]

/-- **C37**, nothing is duplicated: recording lines that are all recorded for the position changes nothing anywhere. -/
theorem C37_again (dump : α → δ) (d : Dict κ (List α)) (pos : κ) (lines : List α)
    (h : ∀ l ∈ lines, ∃ e ∈ recorded d pos, dump e = dump l) (p : κ) :
    recorded (record dump d pos lines) p = recorded d p := by
  rw [recorded_record]
  split
  · next e =>
    subst e
    rw [List.append_right_eq_self, List.filter_eq_nil_iff]
    intro l hl
    obtain ⟨e, he, h1⟩ := h l hl
    simp; exact ⟨e, he, h1.symm⟩
  · rfl

/-- **C37**, nothing is lost: whatever is recorded later, the lines recorded for a position remain, in their order and before
all later ones. -/
theorem C37_never_lost (dump : α → δ) (d : Dict κ (List α)) (calls : List (κ × List α)) (p : κ) :
    recorded d p <+: recorded (history dump d calls) p := by
  unfold history
  induction calls generalizing d with
  | nil => exact List.prefix_refl _
  | cons c calls ih =>
    refine List.IsPrefix.trans ?_ (ih _)
    rw [recorded_record]
    split
    · exact List.prefix_append _ _
    · exact List.prefix_refl _

/-- **C37**, everything arrives: after any history each line of each call is recorded for its position, up to lines with the same
dump, and only lines of such calls are. -/
theorem C37_complete (dump : α → δ) (calls : List (κ × List α)) (p : κ) :
    (∀ c ∈ calls, c.1 = p → ∀ l ∈ c.2, ∃ e ∈ recorded (history dump [] calls) p, dump e = dump l) ∧
      ∀ e ∈ recorded (history dump [] calls) p, ∃ c ∈ calls, c.1 = p ∧ e ∈ c.2 := by
  have key : ∀ (calls : List (κ × List α)) (d : Dict κ (List α)),
      (∀ c ∈ calls, c.1 = p → ∀ l ∈ c.2, ∃ e ∈ recorded (history dump d calls) p, dump e = dump l) ∧
      ∀ e ∈ recorded (history dump d calls) p, e ∈ recorded d p ∨ ∃ c ∈ calls, c.1 = p ∧ e ∈ c.2 := by
    intro calls
    induction calls with
    | nil => intro d; exact ⟨by simp, fun e he => Or.inl he⟩
    | cons c calls ih =>
      intro d
      obtain ⟨h1, h2⟩ := ih (record dump d c.1 c.2)
      refine ⟨?_, ?_⟩
      · intro c' hc' hp l hl
        rcases List.mem_cons.1 hc' with rfl | hc'
        · have h3 : ∃ e ∈ recorded (record dump d c'.1 c'.2) p, dump e = dump l := by
            rw [recorded_record, if_pos hp]
            by_cases hx : ∃ e ∈ recorded d p, dump e = dump l
            · obtain ⟨e, he, h4⟩ := hx
              exact ⟨e, List.mem_append_left _ he, h4⟩
            · refine ⟨l, List.mem_append_right _ (List.mem_filter.2 ⟨hl, ?_⟩), rfl⟩
              simp
              intro e he h5
              exact hx ⟨e, he, h5.symm⟩
          obtain ⟨e, he, h4⟩ := h3
          exact ⟨e, (C37_never_lost dump (record dump d c'.1 c'.2) calls p).subset he, h4⟩
        · exact h1 c' hc' hp l hl
      · intro e he
        rcases h2 e he with h3 | ⟨c', hc', h3⟩
        · rw [recorded_record] at h3
          split at h3
          · next hp =>
            rcases List.mem_append.1 h3 with h4 | h4
            · exact Or.inl h4
            · exact Or.inr ⟨c, by simp, hp, List.mem_of_mem_filter h4⟩
          · exact Or.inl h3
        · exact Or.inr ⟨c', by simp [hc'], h3⟩
  refine ⟨(key calls []).1, fun e he => ?_⟩
  rcases (key calls []).2 e he with h | h
  · simp [recorded] at h
  · exact h

/-- **C37**: if no single call brings the same line twice, no position ever has the same line twice. -/
theorem C37_no_duplicates (dump : α → δ) (calls : List (κ × List α)) (h : ∀ c ∈ calls, (c.2.map dump).Nodup) (p : κ) :
    ((recorded (history dump [] calls) p).map dump).Nodup := by
  have key : ∀ (calls : List (κ × List α)) (d : Dict κ (List α)), (∀ c ∈ calls, (c.2.map dump).Nodup) →
      ((recorded d p).map dump).Nodup → ((recorded (history dump d calls) p).map dump).Nodup := by
    intro calls
    induction calls with
    | nil => intro d _ h; exact h
    | cons c calls ih =>
      intro d hc hd
      refine ih _ (fun c' h' => hc c' (by simp [h'])) ?_
      rw [recorded_record]
      split
      · rw [List.map_append, List.nodup_append]
        refine ⟨hd, ?_, ?_⟩
        · exact ((List.filter_sublist).map dump).nodup (hc c (by simp))
        · intro a ha b hb e
          subst e
          obtain ⟨x, hx, hx2⟩ := List.mem_map.1 ha
          obtain ⟨y, hy, hy2⟩ := List.mem_map.1 hb
          rw [List.mem_filter] at hy
          simp at hy
          exact hy.2 x hx (hy2.trans hx2.symm)
      · exact hd
  exact key calls [] h (by simp [recorded])

example : recorded (history (fun n : Nat => n % 10) [] [("a", [1, 2]), ("b", [3]), ("a", [12, 4, 1])]) "a" = [1, 2, 4] := by
  decide
example : (([("a", [1, 2]), ("b", [3]), ("a", [12, 4, 1])] : List (String × List Nat)).all
    fun c => decide (c.2.map (fun n => n % 10)).Nodup) = true := by decide

/-- Within one call repeated lines are recorded twice: the search for duplicates is in the lines of earlier calls only. -/
theorem C37_batch_negative : ∃ (lines : List Nat), recorded (record (fun n => n) [] "a" lines) "a" = [1, 1] ∧ lines = [1, 1] :=
  ⟨[1, 1], by decide, rfl⟩

end

/-! ## C39 -/

mutual
theorem visit_state (deep : Tree → Bool) : (t : Tree) → (s : Stacks) → (visit deep t s).1 = s
  | .node i k kids, s => by
    have ih := visitKids_state deep kids (enterScope (.node i k kids) { s with nodes := .node i k kids :: s.nodes })
    unfold visit
    dsimp only
    have e : (if deep (.node i k kids) then visitKids deep kids (enterScope (.node i k kids)
        { s with nodes := .node i k kids :: s.nodes }) else (enterScope (.node i k kids)
        { s with nodes := .node i k kids :: s.nodes }, [])).1 = enterScope (.node i k kids)
        { s with nodes := .node i k kids :: s.nodes } := by
      split
      · exact ih
      · rfl
    rw [e]
    unfold leaveScope enterScope
    cases h : Kind.isScope (Tree.node i k kids).kind <;> simp
theorem visitKids_state (deep : Tree → Bool) : (ks : Kids) → (s : Stacks) → (visitKids deep ks s).1 = s
  | .nil, s => rfl
  | .cons f t rest, s => by
    unfold visitKids
    dsimp only
    rw [visit_state deep t s, visitKids_state deep rest s]
end

/-- The scopes of a path. -/
def scopesOf (p : List Tree) : List Tree := p.filter fun t => t.kind.isScope

theorem scopesOf_append (p q : List Tree) : scopesOf (p ++ q) = scopesOf p ++ scopesOf q := by
  simp [scopesOf, List.filter_append]

theorem enterScope_eq (t : Tree) (s : Stacks) :
    enterScope t { s with nodes := t :: s.nodes } = ⟨t :: s.nodes, scopesOf [t] ++ s.scopes⟩ := by
  unfold enterScope scopesOf
  cases h : t.kind.isScope <;> simp [h]

theorem visit_snd (deep : Tree → Bool) (i : Nat) (k : Kind) (kids : Kids) (s : Stacks) :
    (visit deep (.node i k kids) s).2 =
      (.node i k kids, (⟨.node i k kids :: s.nodes, scopesOf [.node i k kids] ++ s.scopes⟩ : Stacks)) ::
        (if deep (.node i k kids) then
          (visitKids deep kids ⟨.node i k kids :: s.nodes, scopesOf [.node i k kids] ++ s.scopes⟩).2 else []) ++
        [(.node i k kids, (⟨.node i k kids :: s.nodes, scopesOf [.node i k kids] ++ s.scopes⟩ : Stacks))] := by
  unfold visit
  dsimp only
  rw [enterScope_eq]
  split
  · rw [visitKids_state]
  · rfl

theorem Path.extend {t : Tree} {q : List Tree} (h : Path t q) {p : Tree} {ks : Kids} {f : Field} (e : p.kids = ks)
    (hm : (f, t) ∈ ks.toList) : Path p (q ++ [p]) := by
  induction h with
  | root => exact .step .root (e ▸ hm)
  | step _ h2 ih => exact .step ih h2

theorem Path.trans {p t : Tree} {q : List Tree} (h : Path t q) {r : List Tree} (hr : Path p (t :: r)) : Path p (q ++ r) := by
  induction h with
  | root => exact hr
  | step _ h2 ih => exact .step ih h2

mutual
theorem visit_events (deep : Tree → Bool) : (t : Tree) → (s : Stacks) → (n : Tree) → (st : Stacks) →
    (n, st) ∈ (visit deep t s).2 → ∃ q, Path t (n :: q) ∧ st = ⟨n :: q ++ s.nodes, scopesOf (n :: q) ++ s.scopes⟩
  | .node i k kids, s, n, st, h => by
    rw [visit_snd, List.mem_append, List.mem_cons] at h
    rcases h with (h | h) | h
    · cases h; exact ⟨[], .root, rfl⟩
    · split at h
      · obtain ⟨f, t, q, h1, h2, h3⟩ := visitKids_events deep kids _ n st h
        refine ⟨q ++ [.node i k kids], h2.extend rfl h1, ?_⟩
        rw [h3]
        simp [scopesOf, List.filter_append, List.filter_cons]
        split <;> simp
      · simp at h
    · simp at h; obtain ⟨rfl, rfl⟩ := h; exact ⟨[], .root, rfl⟩
theorem visitKids_events (deep : Tree → Bool) : (ks : Kids) → (s : Stacks) → (n : Tree) → (st : Stacks) →
    (n, st) ∈ (visitKids deep ks s).2 →
      ∃ f t q, (f, t) ∈ ks.toList ∧ Path t (n :: q) ∧ st = ⟨n :: q ++ s.nodes, scopesOf (n :: q) ++ s.scopes⟩
  | .nil, s, n, st, h => by simp [visitKids] at h
  | .cons f t rest, s, n, st, h => by
    unfold visitKids at h
    dsimp only at h
    rw [visit_state, List.mem_append] at h
    rcases h with h | h
    · obtain ⟨q, h1, h2⟩ := visit_events deep t s n st h
      exact ⟨f, t, q, by simp [Kids.toList], h1, h2⟩
    · obtain ⟨f', t', q, h1, h2, h3⟩ := visitKids_events deep rest s n st h
      exact ⟨f', t', q, by simp [Kids.toList, h1], h2, h3⟩
end

theorem visitKids_child (deep : Tree → Bool) (ks : Kids) (s : Stacks) (f : Field) (c : Tree) (h : (f, c) ∈ ks.toList) :
    (c, (⟨c :: s.nodes, scopesOf [c] ++ s.scopes⟩ : Stacks)) ∈ (visitKids deep ks s).2 := by
  induction ks using Kids.rec (motive_1 := fun _ => True) with
  | node => trivial
  | nil => simp [Kids.toList] at h
  | cons f' t rest _ ih =>
    unfold visitKids
    dsimp only
    rw [visit_state, List.mem_append]
    rcases List.mem_cons.1 h with h | h
    · cases h
      left
      obtain ⟨i, k, kids⟩ := c
      rw [visit_snd]; simp
    · exact Or.inr (ih h)

mutual
theorem visit_closed : (t : Tree) → (s : Stacks) → (n : Tree) → (st : Stacks) →
    (n, st) ∈ (visit (fun _ => true) t s).2 → (f : Field) → (c : Tree) → (f, c) ∈ n.kids.toList →
      (c, (⟨c :: st.nodes, scopesOf [c] ++ st.scopes⟩ : Stacks)) ∈ (visit (fun _ => true) t s).2
  | .node i k kids, s, n, st, h, f, c, hc => by
    rw [visit_snd, List.mem_append, List.mem_cons] at h ⊢
    rw [if_pos rfl] at h ⊢
    rcases h with (h | h) | h
    · cases h; exact Or.inl (Or.inr (visitKids_child _ _ _ f c hc))
    · exact Or.inl (Or.inr (visitKids_closed kids _ n st h f c hc))
    · simp at h; obtain ⟨rfl, rfl⟩ := h; exact Or.inl (Or.inr (visitKids_child _ _ _ f c hc))
theorem visitKids_closed : (ks : Kids) → (s : Stacks) → (n : Tree) → (st : Stacks) →
    (n, st) ∈ (visitKids (fun _ => true) ks s).2 → (f : Field) → (c : Tree) → (f, c) ∈ n.kids.toList →
      (c, (⟨c :: st.nodes, scopesOf [c] ++ st.scopes⟩ : Stacks)) ∈ (visitKids (fun _ => true) ks s).2
  | .nil, s, n, st, h, _, _, _ => by simp [visitKids] at h
  | .cons f' t rest, s, n, st, h, f, c, hc => by
    unfold visitKids at h ⊢
    dsimp only at h ⊢
    rw [visit_state, List.mem_append] at h ⊢
    rcases h with h | h
    · exact Or.inl (visit_closed t s n st h f c hc)
    · exact Or.inr (visitKids_closed rest s n st h f c hc)
end

/-- **C39.** After visiting any subtree, whichever of the visitors descend, both stacks are what they were before. -/
theorem C39_balanced (deep : Tree → Bool) (t : Tree) (s : Stacks) : (visit deep t s).1 = s := visit_state deep t s

/-- **C39.** Whenever the visitor of a node runs, before or after its children, the node stack is the path from the root to that
node, the scope stack consists of the scopes on this path, and the parent, if there is one, has the node as a child. -/
theorem C39_path (deep : Tree → Bool) (root n : Tree) (st : Stacks) (h : (n, st) ∈ (visit deep root {}).2) :
    Path root st.nodes ∧ st.nodes.head? = some n ∧ st.scopes = st.nodes.filter (fun t => t.kind.isScope) ∧
      ∀ p, st.parent = some p → ∃ f, (f, n) ∈ p.kids.toList := by
  obtain ⟨q, hq, rfl⟩ := visit_events deep root {} n st h
  simp only [List.append_nil]
  refine ⟨hq, rfl, rfl, ?_⟩
  intro p hp
  cases hq with
  | root => simp [Stacks.parent] at hp
  | step h1 h2 =>
    simp [Stacks.parent] at hp
    subst hp
    exact ⟨_, h2⟩

/-- **C39.** If all visitors descend, every node of the tree is visited with its path on the stack. -/
theorem C39_all_visited (root n : Tree) (ps : List Tree) (h : Path root (n :: ps)) :
    ∃ st, (n, st) ∈ (visit (fun _ => true) root {}).2 ∧ st.nodes = n :: ps := by
  have key : ∀ p, Path root p → ∀ n ps, p = n :: ps → (n, (⟨n :: ps, scopesOf (n :: ps)⟩ : Stacks)) ∈
      (visit (fun _ => true) root {}).2 := by
    intro p hp
    induction hp with
    | root =>
      intro n ps e
      cases e
      obtain ⟨i, k, kids⟩ := root
      rw [visit_snd]; simp
    | step h1 h2 ih =>
      intro n ps e
      cases e
      have := visit_closed root {} _ _ (ih _ _ rfl) _ _ h2
      rwa [← scopesOf_append] at this
  exact ⟨_, key _ h n ps rfl, rfl⟩

/-! ## C38 -/

theorem Kids.ids_child {ks : Kids} {f : Field} {t : Tree} (h : (f, t) ∈ ks.toList) : t.ids.Sublist ks.ids := by
  induction ks using Kids.rec (motive_1 := fun _ => True) with
  | node => trivial
  | nil => simp [Kids.toList] at h
  | cons f' t' rest _ ih =>
    rcases List.mem_cons.1 h with h | h
    · cases h; exact List.sublist_append_left _ _
    · exact (ih h).trans (List.sublist_append_right _ _)

theorem Tree.ids_eq (t : Tree) : t.ids = t.id :: t.kids.ids := by
  cases t; rfl

theorem Kids.ids_map (ks : Kids) : (ks.toList.map fun c => c.2.id).Sublist ks.ids := by
  induction ks using Kids.rec (motive_1 := fun _ => True) with
  | node => trivial
  | nil => simp [Kids.toList]
  | cons f t rest _ ih =>
    show (t.id :: _).Sublist (t.ids ++ rest.ids)
    rw [Tree.ids_eq]
    exact ((ih.trans (List.sublist_append_right _ _))).cons_cons _

theorem Path.ids_sublist {root : Tree} {p : List Tree} (h : Path root p) : ∀ n ps, p = n :: ps → n.ids.Sublist root.ids := by
  induction h with
  | root => intro n ps e; cases e; exact List.Sublist.refl _
  | step h1 h2 ih =>
    intro n ps e
    cases e
    refine List.Sublist.trans ?_ (ih _ _ rfl)
    rename_i p _ _ _
    rw [Tree.ids_eq p]
    exact (Kids.ids_child h2).trans (List.sublist_cons_self _ _)

theorem Path.not_mem {root : Tree} (hr : root.ids.Nodup) {p : List Tree} (h : Path root p) :
    ∀ n ps, p = n :: ps → ∀ y ∈ ps, y.id ∉ n.ids := by
  induction h with
  | root => intro n ps e; cases e; simp
  | step h1 h2 ih =>
    intro n ps e y hy
    cases e
    rcases List.mem_cons.1 hy with rfl | hy
    · intro hm
      have hn : y.ids.Nodup := (h1.ids_sublist _ _ rfl).nodup hr
      rw [Tree.ids_eq, List.nodup_cons] at hn
      exact hn.1 ((Kids.ids_child h2).subset hm)
    · intro hm
      refine ih _ _ rfl y hy ?_
      rw [Tree.ids_eq]
      exact List.mem_cons_of_mem _ ((Kids.ids_child h2).subset hm)

/-- On a path in a tree with distinct identities no identity occurs twice. -/
theorem Path.nodup {root : Tree} (hr : root.ids.Nodup) {p : List Tree} (h : Path root p) :
    (p.map Tree.id).Nodup := by
  induction h with
  | root => simp
  | step h1 h2 ih =>
    rw [List.map_cons, List.nodup_cons]
    refine ⟨?_, ih⟩
    intro hm
    obtain ⟨y, hy, e⟩ := List.mem_map.1 hm
    exact Path.not_mem hr (.step h1 h2) _ _ rfl y hy (by rw [e, Tree.ids_eq]; simp)

theorem search_none (s : Tree) (l : List Tree) : ∀ b, (∀ x ∈ l, x.id ≠ s.id) → search s b l = none := by
  induction l with
  | nil => intros; rfl
  | cons x l ih =>
    intro b h
    unfold search
    rw [if_neg (by simpa using h x (by simp))]
    exact ih x (fun y hy => h y (by simp [hy]))

theorem search_eq (s c : Tree) (pre rest : List Tree) : ∀ b,
    ((pre ++ c :: s :: rest).map Tree.id).Nodup → search s b (pre ++ c :: s :: rest) = locate s c := by
  induction pre with
  | nil =>
    intro b h
    simp only [List.nil_append, List.map_cons, List.nodup_cons, List.mem_cons, not_or] at h
    simp only [List.nil_append]
    unfold search
    rw [if_neg (by simpa using h.1.1)]
    unfold search
    rw [if_pos (by simp), search_none]
    · simp
    · intro x hx e
      exact h.2.1 (e ▸ List.mem_map.2 ⟨x, hx, rfl⟩)
  | cons x pre ih =>
    intro b h
    simp only [List.cons_append, List.map_cons, List.nodup_cons] at h
    simp only [List.cons_append]
    unfold search
    rw [if_neg]
    · exact ih x h.2
    · intro e
      apply h.1
      simp at e
      rw [e]; simp

theorem mem_field {s c : Tree} {f : Field} : c ∈ s.field f ↔ (f, c) ∈ s.kids.toList := by
  unfold Tree.field
  simp only [List.mem_map, List.mem_filter]
  constructor
  · rintro ⟨⟨f', c'⟩, ⟨h1, h2⟩, h3⟩
    simp at h2 h3; subst h2 h3; exact h1
  · intro h; exact ⟨(f, c), ⟨h, by simp⟩, rfl⟩

theorem kids_inj {s : Tree} (hs : s.ids.Nodup) {f g : Field} {c d : Tree} (h1 : (f, c) ∈ s.kids.toList)
    (h2 : (g, d) ∈ s.kids.toList) (e : c.id = d.id) : f = g ∧ c = d := by
  rw [Tree.ids_eq, List.nodup_cons] at hs
  have := List.inj_on_of_nodup_map ((Kids.ids_map s.kids).nodup hs.2) h1 h2 e
  simpa using this

theorem indexIn_other {s c : Tree} (hs : s.ids.Nodup) {f g : Field} (h : (f, c) ∈ s.kids.toList) (hg : g ≠ f) :
    indexIn s g c = none := by
  unfold indexIn
  rw [Option.map_eq_none_iff, List.findIdx?_eq_none_iff]
  intro x hx
  simp
  intro e
  exact hg (kids_inj hs (mem_field.1 hx) h e).1

theorem indexIn_self {s c : Tree} (hs : s.ids.Nodup) {f : Field} (h : (f, c) ∈ s.kids.toList) :
    ∃ i, indexIn s f c = some ⟨s.id, f, i⟩ ∧ (s.field f)[i]? = some c := by
  unfold indexIn
  cases hx : (s.field f).findIdx? (fun x => x.id == c.id) with
  | none =>
    rw [List.findIdx?_eq_none_iff] at hx
    have := hx c (mem_field.2 h)
    simp at this
  | some i =>
    refine ⟨i, rfl, ?_⟩
    rw [List.findIdx?_eq_some_iff_getElem] at hx
    obtain ⟨hi, h1, _⟩ := hx
    have h2 : (s.field f)[i] ∈ s.field f := List.getElem_mem hi
    have := (kids_inj hs (mem_field.1 h2) h (by simpa using h1)).2
    rw [List.getElem?_eq_getElem hi, this]

theorem locate_some {s c : Tree} (hs : s.ids.Nodup) {f : Field} (h : (f, c) ∈ s.kids.toList)
    (hf : f.isBlock = true ∨ f = .decorators) :
    ∃ i, locate s c = some ⟨s.id, f, i⟩ ∧ (s.field f)[i]? = some c := by
  obtain ⟨i, h1, h2⟩ := indexIn_self hs h
  refine ⟨i, ?_, h2⟩
  unfold locate
  cases f with
  | body => rw [h1]; rfl
  | orelse => rw [indexIn_other hs h (g := .body) (by simp), h1]; rfl
  | decorators =>
    rw [indexIn_other hs h (g := .body) (by simp), indexIn_other hs h (g := .orelse) (by simp), h1]; rfl
  | finalbody =>
    rw [indexIn_other hs h (g := .body) (by simp), indexIn_other hs h (g := .orelse) (by simp),
      indexIn_other hs h (g := .decorators) (by simp), h1]; rfl
  | handlers => simp [Field.isBlock] at hf
  | other => simp [Field.isBlock] at hf

theorem locate_none {s c : Tree} (hs : s.ids.Nodup) {f : Field} (h : (f, c) ∈ s.kids.toList)
    (hf : ¬ (f.isBlock = true ∨ f = .decorators)) : locate s c = none := by
  have h1 : f = .handlers ∨ f = .other := by cases f <;> simp_all [Field.isBlock]
  unfold locate
  have ne : ∀ g : Field, (g.isBlock = true ∨ g = .decorators) → g ≠ f := by
    rintro g hg rfl; exact hf hg
  rw [indexIn_other hs h (ne .body (Or.inl rfl)), indexIn_other hs h (ne .orelse (Or.inl rfl)),
    indexIn_other hs h (ne .decorators (Or.inr rfl)), indexIn_other hs h (ne .finalbody (Or.inl rfl))]
  rfl

/-- A part of a path from some node on is a path. -/
theorem Path.suffix {root : Tree} {pre : List Tree} : ∀ {rest : List Tree}, Path root (pre ++ rest) → rest ≠ [] → Path root rest := by
  induction pre with
  | nil => intro rest h _; exact h
  | cons x pre ih =>
    intro rest h hr
    cases h' : pre ++ rest with
    | nil => simp at h'; exact absurd h'.2 hr
    | cons y ys =>
      rw [List.cons_append, h'] at h
      cases h with
      | step h1 h2 => exact ih (h' ▸ h1) hr

theorem Path.child {root a b : Tree} {pre rest : List Tree} (h : Path root (pre ++ a :: b :: rest)) :
    Path root (b :: rest) ∧ ∃ f, (f, a) ∈ b.kids.toList := by
  have h1 := h.suffix (by simp)
  cases h1 with
  | step h2 h3 => exact ⟨h2, _, h3⟩

/-- Splitting a path at the first scope above a node. -/
theorem split_scope (l : List Tree) (h : ∃ t ∈ l, t.kind.isScope = true) :
    ∃ pre s rest, l = pre ++ s :: rest ∧ s.kind.isScope = true ∧ ∀ t ∈ pre, t.kind.isScope = false := by
  induction l with
  | nil => simp at h
  | cons x l ih =>
    cases hx : x.kind.isScope with
    | true => exact ⟨[], x, l, rfl, hx, by simp⟩
    | false =>
      obtain ⟨t, ht, h2⟩ := h
      rcases List.mem_cons.1 ht with rfl | ht
      · rw [hx] at h2; simp at h2
      · obtain ⟨pre, s, rest, e, h3, h4⟩ := ih ⟨t, ht, h2⟩
        refine ⟨x :: pre, s, rest, by simp [e], h3, ?_⟩
        intro y hy
        rcases List.mem_cons.1 hy with rfl | hy
        · exact hx
        · exact h4 y hy

theorem Path.root_mem {root : Tree} {p : List Tree} (h : Path root p) : p.getLast? = some root := by
  induction h with
  | root => rfl
  | step _ _ ih => rw [List.getLast?_cons_cons]; exact ih

/-- Below an expression there are expressions only. -/
theorem below_expr {root : Tree} (hp : Program root) (pre : List Tree) : ∀ (e : Tree) (rest : List Tree),
    Path root (pre ++ e :: rest) → e.kind = .expr → ∀ t ∈ pre, t.kind = .expr := by
  induction pre with
  | nil => simp
  | cons x pre ih =>
    intro e rest h he t ht
    have h0 : Path root (pre ++ e :: rest) := Path.suffix (pre := [x]) (by simpa using h) (by simp)
    have hall := ih e rest h0 he
    rcases List.mem_cons.1 ht with rfl | ht
    · cases pre with
      | nil =>
        obtain ⟨h1, f, h2⟩ := Path.child (pre := []) (by simpa using h)
        exact (hp.grammar _ _ _ _ h1 h2).expr he
      | cons y pre =>
        obtain ⟨h1, f, h2⟩ := Path.child (pre := []) (a := t) (b := y) (rest := pre ++ e :: rest) (by simpa using h)
        exact (hp.grammar _ _ _ _ h1 h2).expr (hall y (by simp))
    · exact hall t ht

/-- Nothing below the root is a module. -/
theorem not_module {root : Tree} (hp : Program root) {pre : List Tree} {t : Tree} {rest : List Tree}
    (h : Path root (pre ++ t :: rest)) (hr : rest ≠ []) : t.kind ≠ .module := by
  obtain ⟨b, rest, rfl⟩ := List.exists_cons_of_ne_nil hr
  obtain ⟨h1, f, h2⟩ := Path.child h
  exact (hp.grammar _ _ _ _ h1 h2).root

theorem kind_cases {t : Tree} (h : t.kind.isScope = false) : t.kind = .expr ∨ t.kind = .stmt := by
  cases hk : t.kind <;> simp_all [Kind.isScope]

/-- **C38**, partial: for every expression of a program, unless it is in the exception type of an `except` clause, the position found
when its visitor runs is the innermost statement (or decorator) on the way to the expression that is in a block of a scope. The
excluded case is `C38_handler_negative`. -/
theorem C38_position_partial (root : Tree) (hp : Program root) (n : Tree) (ps : List Tree) (h : Path root (n :: ps))
    (hn : n.kind = .expr) (hh : ¬ InHandlerType (n :: ps)) :
    ∃ s f i, Innermost (n :: ps) s f i ∧
      scopeBodyIndex ⟨n :: ps, (n :: ps).filter fun t => t.kind.isScope⟩ = .at ⟨s.id, f, i⟩ := by
  have hnd := h.nodup hp.unique
  have hroot : ∃ t ∈ n :: ps, t.kind.isScope = true :=
    ⟨root, List.mem_of_getLast? h.root_mem, by rw [hp.module]; rfl⟩
  obtain ⟨pre, s, rest, e, hs, hpre⟩ := split_scope _ hroot
  have hpn : pre ≠ [] := by
    rintro rfl
    simp at e
    rw [e.1] at hn; rw [hn] at hs; simp [Kind.isScope] at hs
  obtain ⟨pre, c, rfl⟩ := List.eq_nil_or_concat pre |>.resolve_left hpn
  rw [List.concat_eq_append] at e hpre
  rw [List.append_assoc, List.singleton_append] at e
  rw [e] at h hnd hh ⊢
  have hsc : (pre ++ c :: s :: rest).filter (fun t => t.kind.isScope) = s :: rest.filter (fun t => t.kind.isScope) := by
    rw [List.filter_append, List.filter_eq_nil_iff.2, List.filter_cons, if_neg, List.filter_cons, if_pos hs]
    · rfl
    · rw [hpre c (by simp)]; simp
    · intro a ha; rw [hpre a (by simp [ha])]; simp
  rw [hsc]
  have hcs : c.kind.isScope = false := hpre c (by simp)
  obtain ⟨hP, f, hf⟩ := Path.child h
  have hsn : s.ids.Nodup := (hP.ids_sublist _ _ rfl).nodup hp.unique
  have hok := hp.grammar _ _ _ _ hP hf
  have hl1 : searchLevel ⟨pre ++ c :: s :: rest, s :: rest.filter (fun t => t.kind.isScope)⟩ s = locate s c :=
    search_eq s c pre rest _ hnd
  by_cases hfb : f.isBlock = true ∨ f = .decorators
  · obtain ⟨i, hi, hi2⟩ := locate_some hsn hf hfb
    refine ⟨s, f, i, ⟨pre.length + 1, ⟨by simp, hs, hfb, c, pre.length, rfl, by simp, hi2⟩, ?_⟩, ?_⟩
    · rintro m s' f' i' ⟨h1, h2, -⟩
      by_contra hlt
      have hm : m < (pre ++ [c]).length := by simp; omega
      have : (pre ++ c :: s :: rest)[m]? = (pre ++ [c])[m]? := by
        rw [show pre ++ c :: s :: rest = (pre ++ [c]) ++ s :: rest by simp, List.getElem?_append_left hm]
      rw [this] at h1
      rw [hpre s' (List.mem_of_getElem? h1)] at h2; simp at h2
    · unfold scopeBodyIndex
      dsimp only
      rw [hl1, hi]
  · -- the child is an expression of the header of `s`
    have hce : c.kind = .expr := by
      rcases kind_cases hcs with h1 | h1
      · exact h1
      · exact absurd (Or.inl (hok.block hs (by rw [h1]; simp) (by rw [h1]; simp))) hfb
    have hsm : s.kind ≠ .module := fun h1 => (hok.module h1).2.1 hce
    have hsh : s.kind ≠ .handler := by
      intro h1
      refine hh ⟨pre.length, s, c, by simp, h1, by simp, hce, ?_⟩
      intro m hm t ht
      have hm' : m < (pre ++ [c]).length := by simp; omega
      rw [show pre ++ c :: s :: rest = (pre ++ [c]) ++ s :: rest by simp, List.getElem?_append_left hm'] at ht
      exact hpre t (List.mem_of_getElem? ht)
    have hl1n : locate s c = none := locate_none hsn hf hfb
    have hse : s.kind ≠ .expr := by intro h1; rw [h1] at hs; simp [Kind.isScope] at hs
    -- the second scope
    have hrest : rest ≠ [] := by
      rintro rfl
      have := hP.root_mem
      simp at this
      exact hsm (this ▸ hp.module)
    have hroot2 : ∃ t ∈ rest, t.kind.isScope = true := by
      refine ⟨root, ?_, by rw [hp.module]; rfl⟩
      have := hP.root_mem
      obtain ⟨b, rest, rfl⟩ := List.exists_cons_of_ne_nil hrest
      rw [List.getLast?_cons_cons] at this
      exact List.mem_of_getLast? this
    obtain ⟨mid, s2, rest2, e2, hs2, hmid⟩ := split_scope _ hroot2
    obtain ⟨mid', c2, hmid2⟩ : ∃ mid' c2, s :: mid = mid' ++ [c2] := by
      rcases List.eq_nil_or_concat (s :: mid) with h1 | ⟨a, b, h1⟩
      · simp at h1
      · exact ⟨a, b, by rw [h1, List.concat_eq_append]⟩
    have ep : pre ++ c :: s :: rest = (pre ++ c :: mid') ++ c2 :: s2 :: rest2 := by
      rw [e2, show pre ++ c :: s :: (mid ++ s2 :: rest2) = pre ++ c :: ((s :: mid) ++ s2 :: rest2) by simp, hmid2]
      simp
    rw [ep] at h hnd
    obtain ⟨hP2, f2, hf2⟩ := Path.child h
    have hs2n : s2.ids.Nodup := (hP2.ids_sublist _ _ rfl).nodup hp.unique
    have hok2 := hp.grammar _ _ _ _ hP2 hf2
    have hc2 : c2.kind ≠ .expr ∧ c2.kind ≠ .handler := by
      have hmem : c2 ∈ s :: mid := by rw [hmid2]; simp
      rcases List.mem_cons.1 hmem with h1 | h1
      · exact ⟨h1 ▸ hse, h1 ▸ hsh⟩
      · have hc2s := hmid c2 h1
        refine ⟨?_, ?_⟩
        · intro h2
          have hsmem : s ∈ pre ++ c :: mid' := by
            cases mid' with
            | nil => simp at hmid2; rw [hmid2.2] at h1; simp at h1
            | cons y ys => simp at hmid2; rw [hmid2.1]; simp
          exact hse (below_expr hp (pre ++ c :: mid') c2 (s2 :: rest2) h h2 s hsmem)
        · intro h2; rw [h2] at hc2s; simp [Kind.isScope] at hc2s
    have hfb2 : f2.isBlock = true ∨ f2 = .decorators := Or.inl (hok2.block hs2 hc2.1 hc2.2)
    obtain ⟨i, hi, hi2⟩ := locate_some hs2n hf2 hfb2
    have hl2 : searchLevel ⟨pre ++ c :: s :: rest, s :: rest.filter (fun t => t.kind.isScope)⟩ s2 = locate s2 c2 := by
      unfold searchLevel
      dsimp only
      rw [ep]
      exact search_eq s2 c2 _ rest2 _ hnd
    have hrf : rest.filter (fun t => t.kind.isScope) = s2 :: rest2.filter (fun t => t.kind.isScope) := by
      rw [e2, List.filter_append, List.filter_eq_nil_iff.2, List.filter_cons, if_pos hs2]
      · rfl
      · intro a ha; rw [hmid a ha]; simp
    refine ⟨s2, f2, i, ⟨(pre ++ c :: mid').length + 1, ⟨?_, hs2, hfb2, c2, _, rfl, ?_, hi2⟩, ?_⟩, ?_⟩
    · rw [ep, List.getElem?_append_right (by omega)]; simp
    · rw [ep, List.getElem?_append_right (by omega)]; simp
    · rintro m s' f' i' ⟨h1, h2, h3, c', m', rfl, h5, h6⟩
      by_contra hlt
      -- the scopes below `s2` are `s` only
      have hlen : (s :: mid).length = mid'.length + 1 := by rw [hmid2]; simp
      have hms : m' + 1 = pre.length + 1 := by
        by_contra hne
        have hs' : s'.kind.isScope = false := by
          by_cases hlow : m' + 1 < pre.length + 1
          · rw [show pre ++ c :: s :: rest = (pre ++ [c]) ++ s :: rest by simp,
              List.getElem?_append_left (by simp; omega)] at h1
            exact hpre s' (List.mem_of_getElem? h1)
          · rw [e2, show pre ++ c :: s :: (mid ++ s2 :: rest2) = (pre ++ [c, s]) ++ (mid ++ s2 :: rest2) by simp,
              List.getElem?_append_right (by simp; omega), List.getElem?_append_left (by simp at hlt hlen ⊢; omega)] at h1
            exact hmid s' (List.mem_of_getElem? h1)
        rw [hs'] at h2; simp at h2
      have hm' : m' = pre.length := by omega
      subst hm'
      simp at h1 h5
      subst h1 h5
      have := mem_field.1 (List.mem_of_getElem? h6)
      exact hfb ((kids_inj hsn this hf rfl).1 ▸ h3)
    · unfold scopeBodyIndex
      dsimp only
      rw [hl1, hl1n]
      dsimp only
      rw [hrf]
      dsimp only
      rw [← hrf, hl2, hi]

mutual
/-- All nodes of a tree; used to check concrete trees. -/
def Tree.subs : Tree → List Tree
  | .node i k kids => .node i k kids :: kids.subs
def Kids.subs : Kids → List Tree
  | .nil => []
  | .cons _ t rest => t.subs ++ rest.subs
end

theorem Kids.subs_child {ks : Kids} {f : Field} {t : Tree} (h : (f, t) ∈ ks.toList) : ∀ x ∈ t.subs, x ∈ ks.subs := by
  induction ks using Kids.rec (motive_1 := fun _ => True) with
  | node => trivial
  | nil => simp [Kids.toList] at h
  | cons f' t' rest _ ih =>
    intro x hx
    rcases List.mem_cons.1 h with h | h
    · cases h; exact List.mem_append_left _ hx
    · exact List.mem_append_right _ (ih h x hx)

theorem Path.mem_subs {root : Tree} {p : List Tree} (h : Path root p) : ∀ n ps, p = n :: ps → ∀ x ∈ n.subs, x ∈ root.subs := by
  induction h with
  | root => intro n ps e x hx; cases e; exact hx
  | step h1 h2 ih =>
    intro n ps e x hx
    cases e
    refine ih _ _ rfl x ?_
    rename_i p _ _ _
    obtain ⟨i, k, kids⟩ := p
    exact List.mem_cons_of_mem _ (Kids.subs_child h2 x hx)

/-- The conditions of `ChildOk`, as a check. -/
def childOk (p : Tree) (f : Field) (c : Tree) : Bool :=
  (p.kind != .expr || c.kind == .expr) &&
  (p.kind != .module || (f == .body && c.kind != .expr && c.kind != .handler)) &&
  (!p.kind.isScope || c.kind == .expr || c.kind == .handler || f.isBlock) && c.kind != .module

theorem program_of_check {root : Tree} (h1 : root.kind = .module) (h2 : root.ids.Nodup)
    (h3 : (root.subs.all fun p => p.kids.toList.all fun fc => childOk p fc.1 fc.2) = true) : Program root := by
  refine ⟨h1, h2, ?_⟩
  intro p ps f c hp hc
  have hm : p ∈ root.subs := hp.mem_subs _ _ rfl p (by cases p; simp [Tree.subs])
  have h4 := List.all_eq_true.1 (List.all_eq_true.1 h3 p hm) (f, c) hc
  simp only [childOk, Bool.and_eq_true, Bool.or_eq_true, bne_iff_ne, ne_eq, beq_iff_eq, Bool.not_eq_true'] at h4
  obtain ⟨⟨⟨g1, g2⟩, g3⟩, g4⟩ := h4
  refine ⟨fun h => ?_, fun h => ?_, fun h h' h'' => ?_, g4⟩
  · rcases g1 with g1 | g1
    · exact absurd h g1
    · exact g1
  · rcases g2 with g2 | g2
    · exact absurd h g2
    · exact ⟨g2.1.1, g2.1.2, g2.2⟩
  · rcases g3 with ((g3 | g3) | g3) | g3
    · rw [h] at g3; simp at g3
    · exact absurd g3 h'
    · exact absurd g3 h''
    · exact g3

namespace Ex
/-- A leaf expression. -/
abbrev e (i : Nat) : Tree := .node i .expr .nil
/-- `while <2>: x = <4>` in the second statement of a module. -/
def inner : Tree := .node 3 .stmt (.cons .other (e 4) .nil)
def loop : Tree := .node 1 .while_ (.cons .other (e 2) (.cons .body inner .nil))
def whileTree : Tree := .node 0 .module (.cons .body (.node 9 .stmt .nil) (.cons .body loop .nil))
/-- `try: .. except <3>: ..` -/
def handler : Tree := .node 2 .handler (.cons .other (e 3) (.cons .body (.node 4 .stmt .nil) .nil))
def try_ : Tree := .node 1 .try_ (.cons .body (.node 5 .stmt .nil) (.cons .handlers handler .nil))
def tryTree : Tree := .node 0 .module (.cons .body try_ .nil)
/-- `@<2>` before a function. -/
def fn : Tree := .node 1 .function (.cons .body (.node 3 .stmt .nil) (.cons .decorators (e 2) .nil))
def decoTree : Tree := .node 0 .module (.cons .body fn .nil)
/-- `async def f(): ..; x = <4>` -/
def asyncStmt : Tree := .node 3 .stmt (.cons .other (e 4) .nil)
def asyncFn : Tree := .node 1 .stmt (.cons .body (.node 2 .stmt .nil) (.cons .body asyncStmt .nil))
def asyncTree : Tree := .node 0 .module (.cons .body asyncFn .nil)
end Ex

open Ex in
example : Program whileTree ∧ Path whileTree [e 4, inner, loop, whileTree] ∧ ¬ InHandlerType [e 4, inner, loop, whileTree] ∧
    scopeBodyIndex ⟨[e 4, inner, loop, whileTree], [loop, whileTree]⟩ = .at ⟨1, .body, 0⟩ ∧
    scopeBodyIndex ⟨[e 2, loop, whileTree], [loop, whileTree]⟩ = .at ⟨0, .body, 1⟩ := by
  refine ⟨program_of_check rfl (by decide) (by decide), ?_, ?_, by decide, by decide⟩
  · exact .step (f := .other) (.step (f := .body) (.step (f := .body) .root (by simp [whileTree, Tree.kids, Kids.toList]))
      (by simp [loop, Tree.kids, Kids.toList])) (by simp [inner, Tree.kids, Kids.toList])
  · rintro ⟨n, h, c, h1, h2, -⟩
    have : h ∈ [e 4, inner, loop, whileTree] := List.mem_of_getElem? h1
    simp only [List.mem_cons, List.not_mem_nil, or_false] at this
    rcases this with rfl | rfl | rfl | rfl <;> simp [Tree.kind, inner, loop, whileTree] at h2

open Ex in
/-- **C38 is false in the exception type of an `except` clause**: there the search for a position calls itself without end. -/
theorem C38_handler_negative : ∃ root n ps, Program root ∧ Path root (n :: ps) ∧ n.kind = .expr ∧
    scopeBodyIndex ⟨n :: ps, (n :: ps).filter fun t => t.kind.isScope⟩ = .recursion := by
  refine ⟨tryTree, e 3, [handler, try_, tryTree], program_of_check rfl (by decide) (by decide), ?_, rfl, by decide⟩
  exact .step (f := .other) (.step (f := .handlers) (.step (f := .body) .root (by simp [tryTree, Tree.kids, Kids.toList]))
    (by simp [try_, Tree.kids, Kids.toList])) (by simp [handler, Tree.kids, Kids.toList])

open Ex in
/-- **C38**: in a decorator the position found is in the list of decorators, which is not a list of statements. -/
theorem C38_decorator_negative : ∃ root n ps s i, Program root ∧ Path root (n :: ps) ∧ n.kind = .expr ∧
    scopeBodyIndex ⟨n :: ps, (n :: ps).filter fun t => t.kind.isScope⟩ = .at ⟨s, .decorators, i⟩ := by
  refine ⟨decoTree, e 2, [fn, decoTree], 1, 0, program_of_check rfl (by decide) (by decide), ?_, rfl, by decide⟩
  exact .step (f := .decorators) (.step (f := .body) .root (by simp [decoTree, Tree.kids, Kids.toList]))
    (by simp [fn, Tree.kids, Kids.toList])

open Ex in
/-- **C38**: the body of an `async def` (or of a class, or of a `match` case) is not searched: for the second statement of such a
function the position found is that of the whole function in the module. -/
theorem C38_async_negative : ∃ root fn stmt n, Program root ∧ Path root [n, stmt, fn, root] ∧ n.kind = .expr ∧
    (fn.field .body)[1]? = some stmt ∧
    scopeBodyIndex ⟨[n, stmt, fn, root], [n, stmt, fn, root].filter fun t => t.kind.isScope⟩ = .at ⟨root.id, .body, 0⟩ := by
  refine ⟨asyncTree, asyncFn, asyncStmt, e 4, program_of_check rfl (by decide) (by decide), ?_, rfl, rfl, by decide⟩
  exact .step (f := .other) (.step (f := .body) (.step (f := .body) .root (by simp [asyncTree, Tree.kids, Kids.toList]))
    (by simp [asyncFn, Tree.kids, Kids.toList])) (by simp [asyncStmt, Tree.kids, Kids.toList])

/-! ## C56 -/

section
variable {κ α δ : Type} [DecidableEq κ] [DecidableEq δ]

/-- **C56**, partial: directly inside a list or dict comprehension a conversion with helper lines is refused and
records nothing but imports, which go to the start of the module. -/
theorem C56_refused_partial (dump : α → δ) (isImport : α → Bool) (root : κ) (here : Option κ) (d : Dict κ (List α))
    (nodes : List α) (h : ∃ n ∈ nodes, isImport n = false) :
    (insertMulti dump isImport root here true d nodes).1 = some false ∧
      ∀ p, recorded (insertMulti dump isImport root here true d nodes).2 p =
        recorded d p ++ if root = p then (nodes.filter isImport).filter
          (fun n => !((recorded d p).any fun e => decide (dump n = dump e))) else [] := by
  obtain ⟨n, hn, hi⟩ := h
  have h1 : nodes.isEmpty = false := by cases nodes <;> simp_all
  have h2 : (nodes.filter fun n => !isImport n).isEmpty = false := by
    rw [List.isEmpty_eq_false_iff]
    exact List.ne_nil_of_mem (List.mem_filter.2 ⟨hn, by simp [hi]⟩)
  unfold insertMulti
  rw [h1]
  simp only [Bool.false_eq_true, if_false, if_true, h2, true_and]
  intro p
  by_cases h3 : (nodes.filter isImport).isEmpty = true
  · rw [if_pos h3]
    have : nodes.filter isImport = [] := by simpa using h3
    rw [this]; simp
  · rw [if_neg h3, recorded_record]
    split <;> simp

/-- **C56**: outside of comprehensions every line of the conversion is recorded, the imports at the start of the module and the others
at the position of the use, and the conversion is accepted. -/
theorem C56_accepted (dump : α → δ) (isImport : α → Bool) (root here : κ) (d : Dict κ (List α)) (nodes : List α) :
    (insertMulti dump isImport root (some here) false d nodes).1 = some true ∧
      ∀ n ∈ nodes, ∃ e ∈ recorded (insertMulti dump isImport root (some here) false d nodes).2
        (if isImport n then root else here), dump e = dump n := by
  have rec_mem : ∀ (d : Dict κ (List α)) (q : κ) (ls : List α) (n : α), n ∈ ls →
      ∃ e ∈ recorded (record dump d q ls) q, dump e = dump n := by
    intro d q ls n hn
    rw [recorded_record, if_pos rfl]
    by_cases hx : ∃ e ∈ recorded d q, dump e = dump n
    · obtain ⟨e, he, h4⟩ := hx
      exact ⟨e, List.mem_append_left _ he, h4⟩
    · refine ⟨n, List.mem_append_right _ (List.mem_filter.2 ⟨hn, ?_⟩), rfl⟩
      simp
      intro e he h5
      exact hx ⟨e, he, h5.symm⟩
  have keep : ∀ (d : Dict κ (List α)) (q p : κ) (ls : List α) (e : α), e ∈ recorded d p → e ∈ recorded (record dump d q ls) p := by
    intro d q p ls e he
    rw [recorded_record]
    split
    · exact List.mem_append_left _ he
    · exact he
  unfold insertMulti
  by_cases h1 : nodes.isEmpty = true
  · rw [if_pos h1]
    have : nodes = [] := by simpa using h1
    subst this; simp
  · rw [if_neg h1]
    dsimp only
    by_cases h2 : (nodes.filter fun n => !isImport n).isEmpty = true
    · rw [if_pos h2]
      refine ⟨rfl, fun n hn => ?_⟩
      cases hi : isImport n with
      | false =>
        have h3 : (nodes.filter fun n => !isImport n) = [] := by simpa using h2
        have := List.filter_eq_nil_iff.1 h3 n hn
        simp [hi] at this
      | true =>
        have hm : n ∈ nodes.filter isImport := List.mem_filter.2 ⟨hn, hi⟩
        rw [if_neg (by intro h; rw [List.isEmpty_iff.1 h] at hm; simp at hm)]
        exact rec_mem _ _ _ _ hm
    · rw [if_neg h2]
      simp only [Bool.false_eq_true, if_false, true_and]
      intro n hn
      cases hi : isImport n with
      | false =>
        exact rec_mem _ _ _ _ (List.mem_filter.2 ⟨hn, by simp [hi]⟩)
      | true =>
        have hm : n ∈ nodes.filter isImport := List.mem_filter.2 ⟨hn, hi⟩
        rw [if_neg (by intro h; rw [List.isEmpty_iff.1 h] at hm; simp at hm)]
        simp only [if_true]
        obtain ⟨e, he, h4⟩ := rec_mem d root _ _ hm
        exact ⟨e, keep _ _ _ _ _ he, h4⟩

end

namespace Ex
/-- `y = [<4> + .. for ..]`: 2 is the comprehension, 3 the sum in it. -/
def sum : Tree := .node 3 .expr (.cons .other (e 4) .nil)
def comp : Tree := .node 2 .expr (.cons .other sum .nil)
def assign : Tree := .node 1 .stmt (.cons .other comp .nil)
def compTree : Tree := .node 0 .module (.cons .body assign .nil)
end Ex

open Ex in
/-- **C56 is false in general**: only the parent of the use is looked at, so for a use deeper inside the comprehension the helper lines
are recorded before the whole statement, outside of the comprehension whose variables they may use. `isComp` tells which nodes are
comprehensions; the lines recorded are those of `insert_multi_node` with the tests as the code makes them. -/
theorem C56_nested_negative : ∃ (root c n : Tree) (ps : List Tree) (isComp : Tree → Bool),
    Program root ∧ Path root (n :: ps) ∧ c ∈ ps ∧ isComp c = true ∧
    (∃ p, scopeBodyIndex ⟨n :: ps, (n :: ps).filter fun t => t.kind.isScope⟩ = .at p ∧ p = ⟨root.id, .body, 0⟩ ∧
      insertMulti (κ := Pos) (fun x : Nat => x) (fun _ => false) ⟨root.id, .body, 0⟩ (some p)
        ((Stacks.parent ⟨n :: ps, (n :: ps).filter fun t => t.kind.isScope⟩).any isComp) [] [7] =
      (some true, [(⟨root.id, .body, 0⟩, [7])])) := by
  refine ⟨compTree, comp, e 4, [sum, comp, assign, compTree], fun t => t.id == 2,
    program_of_check rfl (by decide) (by decide), ?_, by simp, rfl, ⟨0, .body, 0⟩, by decide, rfl, by decide⟩
  exact .step (f := .other) (.step (f := .other) (.step (f := .other) (.step (f := .body) .root
    (by simp [compTree, Tree.kids, Kids.toList])) (by simp [assign, Tree.kids, Kids.toList]))
    (by simp [comp, Tree.kids, Kids.toList])) (by simp [sum, Tree.kids, Kids.toList])

example : ∃ n ∈ [1, 2, 3], (fun n : Nat => n % 2 == 1) n = false := ⟨2, by decide, rfl⟩

end Verif.Scope
