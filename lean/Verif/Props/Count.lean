import Verif.Lemmas.Count
import Mathlib.Algebra.Order.Field.Basic
import Mathlib.Algebra.BigOperators.Group.List.Basic
import Mathlib.Tactic.NormNum

/-!
# C20-C26: counters and reports
-/

namespace Verif.Dispatch
open Verif

/-! ## A concrete project for the examples -/

def exTables : Tables where
  aliases := [(py"torch.nn.functional.relu_x", py"torch.relu")]
  api := [(py"torch.relu", ⟨some py"ChangePrefixMatcher", false⟩), (py"torch.save", ⟨some py"GenericMatcher", false⟩),
    (py"torch.Tensor.size", ⟨some py"SizeMatcher", false⟩), (py"torch.nn.Module.apply", ⟨some py"GenericMatcher", false⟩)]
  attr := [(py"torch.Tensor.device", ⟨some py"TensorDeviceMatcher", false⟩)]
  wild := []

def exFile : File where
  names := [(py"torch", py"torch"), (py"nn", py"torch.nn")]
  torch := [py"torch"]
  other := [py"numpy"]

def noHit : Str → Str → Bool := fun _ _ => false

def answer (r : Res) : Oracle := ⟨fun _ => r, fun _ => .text⟩

def exDot (a b : Str) : Expr := .attr (.name a) b

/-- `torch.relu(x)`, converted. -/
def exRelu : Visit := .call exFile (exDot py"torch" py"relu") .other (answer (.nodes true true))
/-- `torch.save(..)`, refused. -/
def exSave : Visit := .call exFile (exDot py"torch" py"save") .other (answer .nothing)
/-- `x.size(..)`, recognised as `torch.Tensor.size`, but the matcher says that it is none. -/
def exMis : Visit := .call exFile (exDot py"x" py"size") .other (answer .misidentify)
/-- `x.size(0)`, converted. -/
def exSize : Visit := .call exFile (exDot py"x" py"size") .other (answer (.nodes true true))
/-- `torch.foo`, not in the tables. -/
def exFoo : Visit := .attr exFile (exDot py"torch" py"foo") .other (answer .nothing)

def exProject : List (List (List Visit)) := [[[exRelu, exSize, exFoo], [.cpp], [.apply py"F"]], [[exRelu, exSave], [], []]]

/-! ## C20 -/

/-- **C20.** At the end of every run: the number of APIs found is the number of successes plus the sum of the table of
unsupported APIs; the two numbers that `run` returns are not negative and add up to the number found; and each entry
of the table of unsupported APIs is positive. -/
theorem C20_counts_balance (T : Tables) (hit : Str → Str → Bool) (files : List (List (List Visit))) (c : Counts)
    (h : runProject T hit files = .ok c) :
    c.torch = c.success + c.unsupport.values.sum ∧
    0 ≤ c.returned.1 ∧ 0 ≤ c.returned.2 ∧ c.returned.1 + c.returned.2 = c.torch ∧
    c.returned.2 = c.unsupport.values.sum ∧ ∀ k n, c.unsupport.get? k = some n → 0 < n := by
  have i := inv_project h
  have h1 : c.torch = c.success + c.unsupport.values.sum := i.balance
  have h2 : 0 ≤ c.unsupport.values.sum := i.pos.total_nonneg.1
  have h3 := i.success
  simp only [Counts.returned]
  exact ⟨h1, h3, by omega, by omega, by omega, i.pos.2⟩

example : runProject exTables noHit exProject = .ok
    { torch := 7, success := 4,
      all := [(py"torch.relu", 2), (py"torch.Tensor.size", 1), (py"torch.foo", 1), (py"torch.save", 1)],
      unsupport := [(py"torch.foo", 1), (py"F.apply", 1), (py"torch.save", 1)] } := by decide +kernel

/-! ## C21 -/

/-- **C21.** The convert rate lies between 0 and 1, and when an API was found it is 1 exactly when the table of
unsupported APIs is empty. (The division is by a positive number: `Counts.rate` divides only then.) -/
theorem C21_rate (T : Tables) (hit : Str → Str → Bool) (files : List (List (List Visit))) (c : Counts)
    (h : runProject T hit files = .ok c) :
    0 ≤ c.rate ∧ c.rate ≤ 1 ∧ (0 < c.torch → (c.rate = 1 ↔ c.unsupport = [])) ∧
    (0 < c.torch → c.rate * c.torch = c.success) := by
  have i := inv_project h
  have hp := i.pos.total_nonneg
  have hb := i.balance
  have hs := i.success
  unfold Counts.rate
  by_cases ht : c.torch > 0
  · simp only [if_pos ht]
    have htq : (0 : ℚ) < (c.torch : ℚ) := by exact_mod_cast ht
    have hsq : (0 : ℚ) ≤ (c.success : ℚ) := by exact_mod_cast hs
    refine ⟨div_nonneg hsq htq.le, ?_, ?_, ?_⟩
    · rw [div_le_one htq]
      have : c.success ≤ c.torch := by omega
      exact_mod_cast this
    · intro _
      rw [div_eq_one_iff_eq htq.ne', ← hp.2]
      constructor
      · intro e
        have : c.success = c.torch := by exact_mod_cast e
        omega
      · intro e
        have : c.success = c.torch := by omega
        exact_mod_cast this
    · intro _
      exact div_mul_cancel₀ _ htq.ne'
  · simp only [if_neg ht]
    refine ⟨le_refl _, by norm_num, fun h => absurd h ht, fun h => absurd h ht⟩

example : ∃ c, runProject exTables noHit exProject = .ok c ∧ 0 < c.torch ∧ c.unsupport ≠ [] :=
  ⟨_, rfl, by decide, by decide⟩
example : ∃ c, runProject exTables noHit [[[exRelu, exSize]]] = .ok c ∧ 0 < c.torch ∧ c.unsupport = [] :=
  ⟨_, rfl, by decide, by decide⟩

/-! ## C22 -/

theorem mapM_perm {α β ε : Type} (g : α → Except ε β) {l l' : List α} (hp : l.Perm l') {r : List β}
    (h : l.mapM g = .ok r) : ∃ r', l'.mapM g = .ok r' ∧ r.Perm r' := by
  have cons : ∀ (a : α) (l : List α) (r : List β), (a :: l).mapM g = .ok r ↔
      ∃ b bs, g a = .ok b ∧ l.mapM g = .ok bs ∧ r = b :: bs := by
    intro a l r
    rw [List.mapM_cons]
    cases g a with
    | error x => simp [bind, Except.bind]
    | ok b =>
      cases hl : l.mapM g with
      | error x => simp [bind, Except.bind]
      | ok bs => simp [bind, Except.bind, pure, Except.pure, eq_comm]
  induction hp generalizing r with
  | nil => exact ⟨r, h, .refl _⟩
  | cons a _ ih =>
    obtain ⟨b, bs, h1, h2, rfl⟩ := (cons _ _ _).1 h
    obtain ⟨bs', h3, h4⟩ := ih h2
    exact ⟨b :: bs', (cons _ _ _).2 ⟨b, bs', h1, h3, rfl⟩, h4.cons b⟩
  | swap a a' l =>
    obtain ⟨b, bs, h1, h2, rfl⟩ := (cons _ _ _).1 h
    obtain ⟨b', bs', h3, h4, rfl⟩ := (cons _ _ _).1 h2
    exact ⟨b' :: b :: bs', (cons _ _ _).2 ⟨b', _, h3, (cons _ _ _).2 ⟨b, bs', h1, h4, rfl⟩, rfl⟩, .swap _ _ _⟩
  | trans _ _ ih1 ih2 =>
    obtain ⟨r1, h1, p1⟩ := ih1 h
    obtain ⟨r2, h2, p2⟩ := ih2 h1
    exact ⟨r2, h2, p1.trans p2⟩

/-- **C22, partial: files do not interact.** The returned pair is the sum over the files of what each file gives by
itself. Missing for the full claim: what happens in one file must not depend on other files. In the code it does for
C++ extensions, whose names and classes are kept in two module-level variables (custom_op_transformer.py:20-21); here
the steps of each file are given. -/
theorem C22_sum_over_files_partial (T : Tables) (hit : Str → Str → Bool) (files : List (List (List Visit)))
    (c : Counts) (h : runProject T hit files = .ok c) :
    ∃ cs : List Counts, List.Forall₂ (fun f cf => runProject T hit [f] = .ok cf) files cs ∧
      c.returned = ((cs.map fun cf => cf.returned.1).sum, (cs.map fun cf => cf.returned.2).sum) := by
  obtain ⟨g, hg, hs⟩ := files_split T hit files
  obtain ⟨ess, he, rfl⟩ := (hs {} c).1 h
  clear h hs
  have cons : ∀ (a) (l : List (List (List Visit))) (r : List (List Eff)), (a :: l).mapM g = .ok r ↔
      ∃ b bs, g a = .ok b ∧ l.mapM g = .ok bs ∧ r = b :: bs := by
    intro a l r
    rw [List.mapM_cons]
    cases g a with
    | error x => simp [bind, Except.bind]
    | ok b =>
      cases hl : l.mapM g with
      | error x => simp [bind, Except.bind]
      | ok bs => simp [bind, Except.bind, pure, Except.pure, eq_comm]
  have hret : ∀ es : List Eff, (runEffs es {}).returned =
      ((es.map Eff.succ).sum, (es.map Eff.torch).sum - (es.map Eff.succ).sum) := by
    intro es
    have := runEffs_counts es {}
    simp [Counts.returned, this.1, this.2]
  induction files generalizing ess with
  | nil =>
    simp [pure, Except.pure] at he
    subst he
    exact ⟨[], .nil, rfl⟩
  | cons f files ih =>
    obtain ⟨b, bs, h1, h2, rfl⟩ := (cons _ _ _).1 he
    obtain ⟨cs, h3, h4⟩ := ih bs h2
    refine ⟨runEffs b {} :: cs, .cons ?_ h3, ?_⟩
    · have : runProject T hit [f] = runFile T hit {} f := by
        simp [runProject]
      rw [this, hg, h1]; rfl
    · rw [hret] at h4 ⊢
      simp only [Prod.mk.injEq] at h4
      simp only [List.flatten_cons, List.map_append, List.sum_append, List.map_cons, List.sum_cons, hret, ← h4.1, ← h4.2,
        Prod.mk.injEq, true_and]
      omega

/-- **C22, partial: order.** In any other order of the files the run ends too, with the same returned pair and the same
table of unsupported APIs. (Missing: see `C22_sum_over_files_partial`.) -/
theorem C22_order_partial (T : Tables) (hit : Str → Str → Bool) (files files' : List (List (List Visit)))
    (hp : files.Perm files') (c : Counts) (h : runProject T hit files = .ok c) :
    ∃ c', runProject T hit files' = .ok c' ∧ c'.returned = c.returned ∧
      ∀ k, c'.unsupport.get? k = c.unsupport.get? k := by
  choose g hg _ using runFile_eff T hit
  have split : ∀ (fs : List (List (List Visit))) (s c : Counts), fs.foldlM (runFile T hit) s = .ok c ↔
      ∃ ess, fs.mapM g = .ok ess ∧ c = runEffs ess.flatten s := by
    intro fs
    induction fs with
    | nil => intro s c; simp [runEffs, pure, Except.pure, eq_comm]
    | cons f fs ih =>
      intro s c
      rw [List.foldlM_cons, List.mapM_cons]
      have h1 : runFile T hit s f = _ := hg f s
      rw [h1]
      cases g f with
      | error x => simp [bind, Except.bind, Except.map]
      | ok es =>
        simp only [bind, Except.bind, Except.map, ih]
        cases fs.mapM g with
        | error x => simp
        | ok ess => simp [pure, Except.pure, runEffs, List.foldl_append]
  obtain ⟨ess, he, hc⟩ := (split files {} c).1 h
  obtain ⟨ess', he', hpe⟩ := mapM_perm g hp he
  have hr : runProject T hit files' = .ok (runEffs ess'.flatten {}) := (split files' {} _).2 ⟨ess', he', rfl⟩
  refine ⟨_, hr, ?_, ?_⟩
  · have h1 := runEffs_counts ess'.flatten {}
    have h2 := runEffs_counts ess.flatten {}
    have hf := hpe.flatten
    rw [hc, Counts.returned, Counts.returned, h1.1, h1.2, h2.1, h2.2,
      (hf.map Eff.torch).sum_eq, (hf.map Eff.succ).sum_eq]
  · intro k
    have i1 := (inv_project hr).pos.2 k
    have i2 := (inv_project h).pos.2 k
    have h1 := runEffs_unsupport ess'.flatten {} k
    have h2 := runEffs_unsupport ess.flatten {} k
    rw [← (hpe.flatten.filterMap Eff.report).count_eq k] at h1
    rw [← hc] at h2
    rw [← h2] at h1
    cases h3 : (runEffs ess'.flatten {}).unsupport.get? k with
    | none =>
      cases h4 : c.unsupport.get? k with
      | none => rfl
      | some n => rw [h3, h4] at h1; have := i2 n h4; simp at h1; omega
    | some m =>
      cases h4 : c.unsupport.get? k with
      | none => rw [h3, h4] at h1; have := i1 m h3; simp at h1; omega
      | some n => rw [h3, h4] at h1; simpa using h1

example : exProject.Perm exProject.reverse ∧ (∃ c, runProject exTables noHit exProject = .ok c) :=
  ⟨(List.reverse_perm _).symm, _, rfl⟩

/-- The table of all APIs *does* depend on the order of the files. -/
theorem C22_table_negative : ∃ (T : Tables) (hit : Str → Str → Bool) (a b : List (List Visit)) (c c' : Counts),
    runProject T hit [a, b] = .ok c ∧ runProject T hit [b, a] = .ok c' ∧
    c.all.get? py"torch.Tensor.size" = none ∧ c'.all.get? py"torch.Tensor.size" = some 1 :=
  ⟨exTables, noHit, [[exSize]], [[exMis]], _, _, rfl, rfl, by decide, by decide⟩

/-! ## C23 -/

/-- **C23, partial.** When no matcher takes a recognition back and there are no C++ extensions, the counts listed per
API add up to the number of APIs found. -/
theorem C23_table_adds_up_partial (T : Tables) (hit : Str → Str → Bool) (files : List (List (List Visit))) (c : Counts)
    (h : runProject T hit files = .ok c) (hv : ∀ f ∈ files, ∀ pass ∈ f, ∀ v ∈ pass, v.Plain) :
    c.all.values.sum = c.torch := by
  obtain ⟨es, he, hg⟩ := files_eff T hit files
  have h1 : runProject T hit files = es.map fun es => runEffs es {} := he {}
  rw [h] at h1
  cases es with
  | error x => simp [Except.map] at h1
  | ok es =>
    simp [Except.map] at h1
    have := runEffs_plain es (hg hv es rfl) {}
    rw [← h1] at this
    simp [total, Dict.values] at this
    simp [Dict.values]; omega

/-- What remains of C23 in general: the listed counts never exceed the number found, and each is positive. -/
theorem C23_table_bound (T : Tables) (hit : Str → Str → Bool) (files : List (List (List Visit))) (c : Counts)
    (h : runProject T hit files = .ok c) :
    c.all.values.sum ≤ c.torch ∧ c.all.keys.Nodup ∧ ∀ k n, c.all.get? k = some n → 0 < n :=
  have i := inv_project h
  ⟨i.bound, i.allPos.1, i.allPos.2⟩

/-- C23 is false of the code: taking back one recognition deletes the count of all earlier uses of the API. -/
theorem C23_negative : ∃ (T : Tables) (hit : Str → Str → Bool) (files : List (List (List Visit))) (c : Counts),
    runProject T hit files = .ok c ∧ c.torch = 2 ∧ c.success = 2 ∧ c.all.values.sum = 0 :=
  ⟨exTables, noHit, [[[exSize, exSize, exMis]]], _, rfl, by decide, by decide, by decide⟩

/-- And uses of C++ extensions are counted, but not listed. -/
theorem C23_cpp_negative : ∃ (T : Tables) (hit : Str → Str → Bool) (files : List (List (List Visit))) (c : Counts),
    runProject T hit files = .ok c ∧ c.torch = 1 ∧ c.all = [] :=
  ⟨exTables, noHit, [[[], [.cpp], []]], _, rfl, by decide, by decide⟩

example : (∀ f ∈ [[[exRelu, exSave, exFoo]]], ∀ pass ∈ f, ∀ v ∈ pass, v.Plain) ∧
    ∃ c, runProject exTables noHit [[[exRelu, exSave, exFoo]]] = .ok c ∧ c.torch = 3 := by
  refine ⟨?_, _, rfl, by decide⟩
  simp only [List.mem_cons, List.not_mem_nil, or_false, forall_eq, forall_eq_or_imp]
  exact ⟨⟨by simp [answer], by simp [answer]⟩, ⟨by simp [answer], by simp [answer]⟩, by simp [answer], by simp [answer]⟩

/-! ## C24 -/

theorem unaligned_go {β : Type} (po : Str → Bool) (l m : Dict Str β) (hw : (m ++ l).keys.Nodup)
    (hb : ∀ k ∈ l.keys, Str.startsWith k py"torch." = false → po k = false) :
    l.foldlM (m := Except Err) (fun m kv => do
      let m ← if Str.startsWith kv.1 py"torch." then pure m else pop m kv.1
      if po kv.1 then pop m kv.1 else pure m) (m ++ l)
    = .ok (m ++ l.filter fun kv => Str.startsWith kv.1 py"torch." && !po kv.1) := by
  induction l generalizing m with
  | nil => simp [pure, Except.pure]
  | cons a l ih =>
    obtain ⟨k, v⟩ := a
    have hk : k ∉ Dict.keys m := by
      intro hm
      rw [Dict.keys_append, List.nodup_append] at hw
      exact hw.2.2 k hm k (by simp [Dict.keys]) rfl
    have herase : Dict.erase (m ++ (k, v) :: l) k = m ++ l := by
      clear hw hb ih
      induction m with
      | nil => simp [Dict.erase]
      | cons b m ihm =>
        obtain ⟨b1, b2⟩ := b
        simp [Dict.keys] at hk
        have : b1 ≠ k := Ne.symm hk.1
        simp only [List.cons_append, Dict.erase, if_neg this]
        rw [ihm (by simpa [Dict.keys] using hk.2)]
    have hhas : Dict.has (m ++ (k, v) :: l) k = true := by
      rw [Dict.has_iff, Dict.keys_append]; simp [Dict.keys]
    have hw1 : (m ++ l).keys.Nodup := by
      refine List.Nodup.sublist ?_ hw
      simp [Dict.keys]
    have hb' : ∀ k ∈ Dict.keys l, Str.startsWith k py"torch." = false → po k = false :=
      fun k hk => hb k (by simp [Dict.keys] at hk ⊢; exact Or.inr hk)
    rw [List.foldlM_cons]
    cases hs : Str.startsWith k py"torch." with
    | true =>
      cases hp : po k with
      | true =>
        simp only [if_true, pure, Except.pure, bind, Except.bind, pop, hhas, herase]
        have := ih m hw1 hb'
        rw [show (List.filter (fun kv => Str.startsWith kv.1 py"torch." && !po kv.1) ((k, v) :: l)) =
          List.filter (fun kv => Str.startsWith kv.1 py"torch." && !po kv.1) l by simp [hp]]
        exact this
      | false =>
        simp only [if_true, pure, Except.pure, bind, Except.bind, Bool.false_eq_true, if_false]
        have := ih (m ++ [(k, v)]) (by simpa using hw) hb'
        simp only [List.append_assoc, List.singleton_append] at this
        rw [show (List.filter (fun kv => Str.startsWith kv.1 py"torch." && !po kv.1) ((k, v) :: l)) =
          (k, v) :: List.filter (fun kv => Str.startsWith kv.1 py"torch." && !po kv.1) l by simp [hp, hs]]
        exact this
    | false =>
      have hp := hb k (by simp [Dict.keys]) hs
      simp only [hp, Bool.false_eq_true, if_false, pure, Except.pure, bind, Except.bind, pop, hhas, herase, if_true]
      have := ih m hw1 hb'
      rw [show (List.filter (fun kv => Str.startsWith kv.1 py"torch." && !po kv.1) ((k, v) :: l)) =
        List.filter (fun kv => Str.startsWith kv.1 py"torch." && !po kv.1) l by simp [hs]]
      exact this

/-- **C24, partial.** When every found API that is prefix-only starts with `torch.`, the report is made and lists exactly
the found APIs that start with `torch.` and are not prefix-only, in the same order with the same data. -/
theorem C24_unaligned_partial {β : Type} (prefixOnly : Str → Bool) (all : Dict Str β) (hw : all.keys.Nodup)
    (hb : ∀ k ∈ all.keys, prefixOnly k = true → ∃ r, k = py"torch." ++ r) :
    unaligned prefixOnly all = .ok (all.filter fun kv => Str.startsWith kv.1 py"torch." && !prefixOnly kv.1) := by
  have := unaligned_go prefixOnly all [] (by simpa using hw) (by
    intro k hk hs
    cases hp : prefixOnly k with
    | false => rfl
    | true =>
      obtain ⟨r, hr⟩ := hb k hk hp
      rw [Str.startsWith_iff.2 ⟨r, hr⟩] at hs
      simp at hs)
  simpa [unaligned] using this

/-- C24 is false of the code in general: a prefix-only API outside `torch` is removed twice and the run ends with a
`KeyError`. The shipped tables have such an entry, see `C24_shipped_entry`. -/
theorem C24_negative : ∃ (prefixOnly : Str → Bool) (all : Dict Str Int), all.keys.Nodup ∧
    unaligned prefixOnly all = .error .keyError :=
  ⟨fun k => k == py"transformers.PreTrainedTokenizer", [(py"transformers.PreTrainedTokenizer", 1)], by decide, by decide⟩

example : ∃ all : Dict Str Int, all.keys.Nodup ∧ (∀ k ∈ all.keys, (k == py"torch.abs") = true → ∃ r, k = py"torch." ++ r) ∧
    all.keys = [py"torch.abs", py"torch.save", py"transformers.X"] ∧
    unaligned (fun k => k == py"torch.abs") all = .ok [(py"torch.save", 1)] :=
  ⟨[(py"torch.abs", 2), (py"torch.save", 1), (py"transformers.X", 3)], by decide, by
    intro k _ h
    exact ⟨py"abs", by simpa using h⟩, rfl, by decide +kernel⟩

/-! ## C25 -/

/-- **C25.** A report lists the same items, each as often as it is in the table (so once, keys being unique), with
decreasing counts; and items with equal counts stay in the order of the table. -/
theorem C25_reports {α : Type} (key : α → Int) (items : List α) :
    (sortReport key items).Perm items ∧
    (sortReport key items).Pairwise (fun a b => key b ≤ key a) ∧
    ∀ n, (sortReport key items).filter (fun a => key a = n) = items.filter (fun a => key a = n) := by
  have htrans : ∀ a b c : α, decide (key b ≤ key a) = true → decide (key c ≤ key b) = true →
      decide (key c ≤ key a) = true := by
    intro a b c h1 h2; simp at h1 h2 ⊢; omega
  have htotal : ∀ a b : α, (decide (key b ≤ key a) || decide (key a ≤ key b)) = true := by
    intro a b; simp; omega
  refine ⟨List.mergeSort_perm _ _, ?_, ?_⟩
  · have := List.pairwise_mergeSort (le := fun a b => decide (key b ≤ key a)) htrans htotal items
    exact this.imp (by intro a b h; simpa using h)
  · intro n
    have hsub : (items.filter fun a => key a = n).Sublist (sortReport key items) := by
      unfold sortReport
      apply List.sublist_mergeSort htrans htotal
      · rw [List.pairwise_filter]
        exact List.pairwise_of_forall (fun x y => by
          intro hx hy; simp at hx hy ⊢; omega)
      · exact List.filter_sublist
    have h2 := hsub.filter (fun a => key a = n)
    simp only [List.filter_filter, Bool.and_self] at h2
    refine (h2.eq_of_length ?_).symm
    exact (((List.mergeSort_perm items _).filter (fun a => decide (key a = n))).length_eq).symm

example : sortReport Prod.snd [(py"a", 1), (py"b", 3), (py"c", 1), (py"d", 7)] =
    [(py"d", 7), (py"b", 3), (py"a", 1), (py"c", 1)] := by
  simp [sortReport, List.mergeSort, List.MergeSort.Internal.splitInTwo]

/-! ## C26 -/

theorem stats_eq (rates : List ℚ) : stats rates =
    { n100 := rates.countP (fun r => decide (r = 1)), n95 := rates.countP (fun r => decide (r ≥ 95 / 100)),
      n90 := rates.countP (fun r => decide (r ≥ 90 / 100)) } := by
  have go : ∀ (rates : List ℚ) (s : Stats), rates.foldl Stats.add s =
      { n100 := s.n100 + rates.countP (fun r => decide (r = 1)),
        n95 := s.n95 + rates.countP (fun r => decide (r ≥ 95 / 100)),
        n90 := s.n90 + rates.countP (fun r => decide (r ≥ 90 / 100)) } := by
    intro rates
    induction rates with
    | nil => intro s; simp
    | cons r rates ih =>
      intro s
      rw [List.foldl_cons, ih]
      simp only [Stats.add, List.countP_cons, Stats.mk.injEq]
      refine ⟨?_, ?_, ?_⟩
      · by_cases h : r = 1 <;> simp [h]; omega
      · by_cases h : r ≥ 95 / 100 <;> simp [h]; omega
      · by_cases h : r ≥ 90 / 100 <;> simp [h]; omega
  rw [stats, go]; simp

/-- **C26.** The three numbers count the projects with rate 1, at least 0.95 and at least 0.9, and are ordered; when the
number of projects is that of the rates, the percentages are defined as soon as there is a project, and are at most 1. -/
theorem C26_statistics (rates : List ℚ) :
    (stats rates).n100 = (rates.filter (fun r => r = 1)).length ∧
    (stats rates).n95 = (rates.filter (fun r => r ≥ 95 / 100)).length ∧
    (stats rates).n90 = (rates.filter (fun r => r ≥ 90 / 100)).length ∧
    (stats rates).n100 ≤ (stats rates).n95 ∧ (stats rates).n95 ≤ (stats rates).n90 ∧
    (stats rates).n90 ≤ rates.length ∧
    (rates ≠ [] → ∃ a b c, percentages (stats rates) rates.length = some (a, b, c) ∧ 0 ≤ a ∧ a ≤ b ∧ b ≤ c ∧ c ≤ 1) := by
  have e := stats_eq rates
  have l1 : (stats rates).n100 ≤ (stats rates).n95 := by
    rw [e]; apply List.countP_mono_left
    intro r _ h; simp at h ⊢; rw [h]; norm_num
  have l2 : (stats rates).n95 ≤ (stats rates).n90 := by
    rw [e]; apply List.countP_mono_left
    intro r _ h; simp at h ⊢; refine le_trans ?_ h; norm_num
  have l3 : (stats rates).n90 ≤ rates.length := by
    rw [e]; exact List.countP_le_length
  refine ⟨by rw [e]; exact List.countP_eq_length_filter, by rw [e]; exact List.countP_eq_length_filter,
    by rw [e]; exact List.countP_eq_length_filter, l1, l2, l3, ?_⟩
  intro hne
  have hlen : 0 < rates.length := List.length_pos_iff.2 hne
  have hq : (0 : ℚ) < (rates.length : ℚ) := by exact_mod_cast hlen
  refine ⟨(stats rates).n100 / rates.length, (stats rates).n95 / rates.length, (stats rates).n90 / rates.length,
    by simp only [percentages, if_neg hlen.ne'], ?_, ?_, ?_, ?_⟩
  · exact div_nonneg (by exact_mod_cast Nat.zero_le _) hq.le
  · exact div_le_div_of_nonneg_right (by exact_mod_cast l1) hq.le
  · exact div_le_div_of_nonneg_right (by exact_mod_cast l2) hq.le
  · rw [div_le_one hq]; exact_mod_cast l3

/-- With an empty input directory the statistics end in a `ZeroDivisionError`. -/
theorem C26_empty : percentages (stats []) 0 = none := rfl

/-- The directory is listed a second time for the number of projects. When the output was written into it, the number is
that of another listing, and a directory in which all projects convert fully is reported below 100%. -/
theorem C26_second_listing : ∃ a b c, percentages (stats [1, 1]) 3 = some (a, b, c) ∧ a < 1 := by
  refine ⟨_, _, _, rfl, ?_⟩
  rw [stats_eq]
  norm_num [List.countP_cons]

example : (stats [1, 1, 96 / 100, 1 / 2, 91 / 100]) = ⟨2, 3, 4⟩ := by
  rw [stats_eq]; norm_num [List.countP_cons]

end Verif.Dispatch
