import Verif.Model.Kwargs
import Mathlib.Data.List.Perm.Lattice
import Mathlib.Data.List.Nodup

/-!
# Going through all the calls of an API

`K.check` runs a matcher on a description of all its calls at once. For each key of the dictionary the description tells
the value, and the argument that must be given for the key to be there. `check_sound` says that what is checked at the ends of the
matcher holds for every call.
-/

namespace Verif.Template
open Verif
open Verif.Spec

/-! ## Descriptions -/

/-- A key with its value. It is in the dictionary if the argument `cond` is given, or always. -/
structure Ent where
  key : Str
  cond : Option Str
  val : Val

structure A where
  ents : List Ent
  loc : Dict Str Val

def Ent.live (c : Call) (e : Ent) : Bool :=
  match e.cond with
  | none => true
  | some p => c.args.has p

/-- The state of the matcher is one of those described. -/
structure Rel (c : Call) (a : A) (s : St) : Prop where
  perm : s.kw.Perm ((a.ents.filter (·.live c)).map fun e => (e.key, e.val))
  nd : (a.ents.map (·.key)).Nodup
  loc : s.loc = a.loc

def A.find (a : A) (k : Str) : Option Ent := a.ents.find? (·.key == k)

/-- The argument is given. -/
def A.assume (p : Str) (a : A) : A :=
  { a with ents := a.ents.map fun e => match e.cond with
      | none => e
      | some q => if q == p then { e with cond := none } else e }

/-- The argument is not given. -/
def A.deny (p : Str) (a : A) : A :=
  { a with ents := a.ents.filter fun e => match e.cond with
      | none => true
      | some q => !(q == p) }

def A.del (k : Str) (a : A) : A := { a with ents := a.ents.filter fun e => !(e.key == k) }

def A.put (k : Str) (v : Val) (a : A) : A := { a with ents := ⟨k, none, v⟩ :: (a.del k).ents }

/-! ## Dictionaries as lists -/

theorem erase_eq_filter {β : Type} {d : Dict Str β} (hd : d.WF) (k : Str) : d.erase k = d.filter fun kv => !(kv.1 == k) := by
  induction d with
  | nil => rfl
  | cons kv d ih =>
    obtain ⟨k', v⟩ := kv
    have hwf : k' ∉ Dict.keys d ∧ Dict.WF d := by simpa [Dict.WF, Dict.keys] using hd
    by_cases h : k' = k
    · subst h
      have : d.filter (fun kv => !(kv.1 == k')) = d := by
        refine List.filter_eq_self.2 fun kv hkv => ?_
        have : kv.1 ≠ k' := fun e => hwf.1 (by rw [← e]; exact List.mem_map_of_mem hkv)
        simp [this]
      simp [Dict.erase, this]
    · simp [Dict.erase, h, ih hwf.2]

theorem set_perm {β : Type} {d : Dict Str β} (hd : d.WF) (k : Str) (v : β) :
    (d.set k v).Perm ((k, v) :: d.filter fun kv => !(kv.1 == k)) := by
  induction d with
  | nil => simp [Dict.set]
  | cons kv d ih =>
    obtain ⟨k', v'⟩ := kv
    have hwf : k' ∉ Dict.keys d ∧ Dict.WF d := by simpa [Dict.WF, Dict.keys] using hd
    by_cases h : k' = k
    · subst h
      have : d.filter (fun kv => !(kv.1 == k')) = d := by
        refine List.filter_eq_self.2 fun kv hkv => ?_
        have : kv.1 ≠ k' := fun e => hwf.1 (by rw [← e]; exact List.mem_map_of_mem hkv)
        simp [this]
      simp [Dict.set, this]
    · simp only [Dict.set, h, if_false]
      refine ((ih hwf.2).cons _).trans ?_
      simp only [List.filter_cons, beq_eq_false_iff_ne.2 h, Bool.not_false, if_true]
      exact List.Perm.swap _ _ _

theorem live_keys {c : Call} {a : A} {s : St} (h : Rel c a s) :
    s.kw.keys.Perm ((a.ents.filter (·.live c)).map (·.key)) := by
  have := h.perm.map Prod.fst
  rw [List.map_map] at this
  exact this

theorem Rel.wf {c : Call} {a : A} {s : St} (h : Rel c a s) : s.kw.WF :=
  (live_keys h).nodup_iff.2 (h.nd.sublist (List.filter_sublist.map _))

theorem Rel.get_live {c : Call} {a : A} {s : St} (h : Rel c a s) {e : Ent} (he : e ∈ a.ents) (hl : e.live c = true) :
    s.kw.get? e.key = some e.val := by
  refine Dict.get?_of_mem h.wf (h.perm.mem_iff.2 ?_)
  exact List.mem_map.2 ⟨e, List.mem_filter.2 ⟨he, hl⟩, rfl⟩

theorem Rel.get_dead {c : Call} {a : A} {s : St} (h : Rel c a s) {e : Ent} (he : e ∈ a.ents) (hl : e.live c = false) :
    s.kw.get? e.key = none := by
  rw [Dict.get?_eq_none_iff, (live_keys h).mem_iff]
  intro hm
  obtain ⟨e', he', hk⟩ := List.mem_map.1 hm
  have hm' := List.mem_filter.1 he'
  have : e' = e := List.inj_on_of_nodup_map h.nd hm'.1 he hk
  rw [this, hl] at hm'
  exact absurd hm'.2 (by simp)

theorem find_some {a : A} {k : Str} {e : Ent} (h : a.find k = some e) : e ∈ a.ents ∧ e.key = k :=
  ⟨List.mem_of_find?_eq_some h, by simpa using List.find?_some h⟩

theorem Rel.get_none {c : Call} {a : A} {s : St} (h : Rel c a s) {k : Str} (hf : a.find k = none) : s.kw.get? k = none := by
  rw [Dict.get?_eq_none_iff, (live_keys h).mem_iff]
  intro hm
  obtain ⟨e, he, hk⟩ := List.mem_map.1 hm
  have := List.find?_eq_none.1 hf e (List.mem_filter.1 he).1
  simp [hk] at this

theorem has_eq {β : Type} (d : Dict Str β) (k : Str) : d.has k = (d.get? k).isSome := rfl

theorem Rel.assume {c : Call} {a : A} {s : St} (h : Rel c a s) {p : Str} (hp : c.args.has p = true) :
    Rel c (a.assume p) s := by
  have hlive : ∀ e : Ent, (match e.cond with
      | none => e
      | some q => if q == p then { e with cond := none } else e).live c = e.live c := by
    intro e
    obtain ⟨k, cd, v⟩ := e
    cases cd with
    | none => rfl
    | some q =>
      by_cases hq : q = p
      · subst hq; simp [Ent.live, hp]
      · simp [hq]
  have hkey : ∀ e : Ent, (match e.cond with
      | none => e
      | some q => if q == p then { e with cond := none } else e).key = e.key := by
    intro e; obtain ⟨k, cd, v⟩ := e
    cases cd with
    | none => rfl
    | some q => by_cases hq : q = p <;> simp [hq]
  have hval : ∀ e : Ent, (match e.cond with
      | none => e
      | some q => if q == p then { e with cond := none } else e).val = e.val := by
    intro e; obtain ⟨k, cd, v⟩ := e
    cases cd with
    | none => rfl
    | some q => by_cases hq : q = p <;> simp [hq]
  refine ⟨?_, ?_, h.loc⟩
  · refine h.perm.trans (List.Perm.of_eq ?_)
    simp only [A.assume, List.filter_map, List.map_map]
    have : ((fun x : Ent => x.live c) ∘ fun e : Ent => (match e.cond with
      | none => e
      | some q => if q == p then { e with cond := none } else e)) = fun e => e.live c := funext hlive
    rw [this]
    refine List.map_congr_left fun e _ => ?_
    simp only [Function.comp_apply]
    rw [hkey, hval]
  · have : (a.assume p).ents.map (·.key) = a.ents.map (·.key) := by
      simp only [A.assume, List.map_map]
      exact List.map_congr_left fun e _ => hkey e
    rw [this]; exact h.nd

theorem Rel.deny {c : Call} {a : A} {s : St} (h : Rel c a s) {p : Str} (hp : c.args.has p = false) : Rel c (a.deny p) s := by
  refine ⟨?_, ?_, h.loc⟩
  · refine h.perm.trans (List.Perm.of_eq ?_)
    simp only [A.deny, List.filter_filter]
    congr 1
    refine List.filter_congr fun e _ => ?_
    obtain ⟨k, cd, v⟩ := e
    cases cd with
    | none => simp [Ent.live]
    | some q =>
      by_cases hq : q = p
      · subst hq; simp [Ent.live, hp]
      · simp [Ent.live, hq]
  · exact h.nd.sublist (List.filter_sublist.map _)

theorem Rel.del {c : Call} {a : A} {s : St} (h : Rel c a s) (k : Str) :
    Rel c (a.del k) { s with kw := s.kw.erase k } := by
  refine ⟨?_, h.nd.sublist (List.filter_sublist.map _), h.loc⟩
  simp only
  rw [erase_eq_filter h.wf]
  refine (h.perm.filter _).trans (List.Perm.of_eq ?_)
  simp only [A.del, List.filter_map, List.filter_filter]
  congr 1
  refine List.filter_congr fun e _ => ?_
  simp [Bool.and_comm]

theorem Rel.put {c : Call} {a : A} {s : St} (h : Rel c a s) (k : Str) (v : Val) :
    Rel c (a.put k v) { s with kw := s.kw.set k v } := by
  have hd := h.del k
  refine ⟨?_, ?_, h.loc⟩
  · simp only [A.put]
    refine (set_perm h.wf k v).trans ?_
    have hp := hd.perm
    simp only [erase_eq_filter h.wf] at hp
    rw [List.filter_cons_of_pos (by rfl), List.map_cons]
    exact hp.cons _
  · simp only [A.put, List.map_cons, List.nodup_cons]
    refine ⟨?_, hd.nd⟩
    intro hm
    obtain ⟨e, he, hk⟩ := List.mem_map.1 hm
    have := (List.mem_filter.1 he).2
    simp [hk] at this

theorem Rel.front {c : Call} {a : A} {s : St} (h : Rel c a s) {k : Str} (hf : a.find k = none) (v : Val) :
    Rel c (a.put k v) { s with kw := Dict.update [(k, v)] s.kw } := by
  have hk : k ∉ s.kw.keys := Dict.get?_eq_none_iff.1 (h.get_none hf)
  have hu : Dict.update [(k, v)] s.kw = (k, v) :: s.kw := by
    refine Dict.update_fresh _ _ ?_
    have : (k :: s.kw.keys).Nodup := List.nodup_cons.2 ⟨hk, h.wf⟩
    simpa [Dict.keys] using this
  have hset : (s.kw.set k v).Perm ((k, v) :: s.kw) := by
    rw [Dict.set_of_not_mem hk]
    exact List.perm_append_singleton _ _
  have hput := h.put k v
  refine ⟨?_, hput.nd, h.loc⟩
  simp only
  rw [hu]
  exact hset.symm.trans hput.perm

/-! ## `change_kwargs` -/

/-- The keys written for a key. -/
def changeKeys (tbl : Dict Str Matcher.Change) (k : Str) : List Str :=
  match tbl.get? k with
  | some c => c.targets
  | none => [k]

/-- The keys that stay. -/
def changeKept (tbl : Dict Str Matcher.Change) (unuse : List Str) (k : Str) : List Str :=
  match tbl.get? k with
  | some c => c.targets
  | none => if k ∈ unuse then [] else [k]

theorem changeKept_sublist (tbl : Dict Str Matcher.Change) (unuse : List Str) (k : Str) :
    (changeKept tbl unuse k).Sublist (changeKeys tbl k) := by
  unfold changeKept changeKeys
  split
  · exact List.Sublist.refl _
  · split <;> simp

theorem foldl_set {β : Type} (ts : List Str) (v : β) (d : Dict Str β) (h : (d.keys ++ ts).Nodup) :
    ts.foldl (fun d t => Dict.set d t v) d = d ++ ts.map fun t => (t, v) := by
  induction ts generalizing d with
  | nil => simp
  | cons t ts ih =>
    have ht : t ∉ d.keys := by
      intro hm
      have := List.nodup_append.1 h
      exact this.2.2 t hm t (by simp) rfl
    simp only [List.foldl_cons]
    rw [Dict.set_of_not_mem ht, ih]
    · simp
    · rw [Dict.keys_append]
      simpa [Dict.keys, List.append_assoc] using h

theorem changeVals_eq (tbl : Dict Str Matcher.Change) (unuse : List Str) (d acc : Dict Str Val)
    (h : (acc.keys ++ d.flatMap fun kv => changeKeys tbl kv.1).Nodup) :
    d.foldl (changeStep tbl unuse) acc = acc ++ d.flatMap fun kv => (changeKept tbl unuse kv.1).map fun t => (t, kv.2) := by
  induction d generalizing acc with
  | nil => simp
  | cons kv d ih =>
    rw [List.flatMap_cons, ← List.append_assoc] at h
    have h1 := (List.nodup_append.1 h).1
    have hstep : changeStep tbl unuse acc kv = acc ++ (changeKept tbl unuse kv.1).map fun t => (t, kv.2) := by
      unfold changeStep changeKept
      unfold changeKeys at h1
      cases hg : tbl.get? kv.1 with
      | some c =>
        rw [hg] at h1
        exact foldl_set _ _ _ h1
      | none =>
        rw [hg] at h1
        have hk : kv.1 ∉ acc.keys := fun hm => (List.nodup_append.1 h1).2.2 _ hm kv.1 (by simp) rfl
        dsimp only
        split
        · rw [Dict.set_of_not_mem hk]
          simp only [List.map_nil, List.append_nil]
          have hwf : Dict.WF (acc ++ [(kv.1, kv.2)]) := by
            unfold Dict.WF
            rw [Dict.keys_append]
            exact h1
          rw [erase_eq_filter hwf, List.filter_append]
          have : acc.filter (fun x => !(x.1 == kv.1)) = acc := by
            refine List.filter_eq_self.2 fun x hx => ?_
            have : x.1 ≠ kv.1 := fun e => hk (by rw [← e]; exact List.mem_map_of_mem hx)
            simp [this]
          rw [this]
          simp
        · rw [Dict.set_of_not_mem hk]; rfl
    rw [List.foldl_cons, hstep, ih, List.flatMap_cons, List.append_assoc]
    rw [Dict.keys_append]
    refine h.sublist (List.Sublist.append (List.Sublist.append_left ?_ _) (List.Sublist.refl _))
    have : Dict.keys ((changeKept tbl unuse kv.1).map fun t => (t, kv.2)) = changeKept tbl unuse kv.1 := by
      simp [Dict.keys, List.map_map, Function.comp_def]
    rw [this]
    exact changeKept_sublist _ _ _

def A.change (tbl : Dict Str Matcher.Change) (unuse : List Str) (a : A) : A :=
  { a with ents := a.ents.flatMap fun e => (changeKept tbl unuse e.key).map fun t => ⟨t, e.cond, e.val⟩ }

/-- No two keys become the same. -/
def A.apart (tbl : Dict Str Matcher.Change) (a : A) : Bool := decide (a.ents.flatMap fun e => changeKeys tbl e.key).Nodup

theorem flatMap_sublist {α β : Type} {l₁ l₂ : List α} (h : l₁.Sublist l₂) (f : α → List β) :
    (l₁.flatMap f).Sublist (l₂.flatMap f) := by
  induction h with
  | slnil => exact List.Sublist.refl _
  | cons a _ ih => rw [List.flatMap_cons]; exact ih.trans (List.sublist_append_right _ _)
  | cons_cons a _ ih => rw [List.flatMap_cons, List.flatMap_cons]; exact ih.append_left _

theorem flatMap_sublist_right {α β : Type} (l : List α) {f g : α → List β} (h : ∀ a, (f a).Sublist (g a)) :
    (l.flatMap f).Sublist (l.flatMap g) := by
  induction l with
  | nil => exact List.Sublist.refl _
  | cons a l ih => rw [List.flatMap_cons, List.flatMap_cons]; exact List.Sublist.append (h a) ih

theorem filter_flatMap_const {α β : Type} (l : List α) (f : α → List β) (p : β → Bool) (q : α → Bool)
    (h : ∀ a, ∀ b ∈ f a, p b = q a) : (l.flatMap f).filter p = (l.filter q).flatMap f := by
  induction l with
  | nil => rfl
  | cons a l ih =>
    rw [List.flatMap_cons, List.filter_append, ih]
    by_cases hq : q a = true
    · rw [List.filter_cons_of_pos hq, List.flatMap_cons]
      congr 1
      exact List.filter_eq_self.2 fun b hb => by rw [h a b hb, hq]
    · rw [List.filter_cons_of_neg hq]
      rw [List.filter_eq_nil_iff.2 fun b hb => by rw [h a b hb]; exact hq]
      rfl

theorem Rel.change {c : Call} {a : A} {s : St} (h : Rel c a s) (tbl : Dict Str Matcher.Change) (unuse : List Str)
    (ha : a.apart tbl = true) : Rel c (a.change tbl unuse) { s with kw := changeVals tbl unuse s.kw } := by
  have ha : (a.ents.flatMap fun e => changeKeys tbl e.key).Nodup := by simpa [A.apart] using ha
  have hnd : (s.kw.flatMap fun kv => changeKeys tbl kv.1).Nodup := by
    have hp := h.perm.flatMap_right fun kv => changeKeys tbl kv.1
    rw [List.flatMap_map] at hp
    exact hp.nodup_iff.2 (ha.sublist (flatMap_sublist List.filter_sublist _))
  refine ⟨?_, ?_, h.loc⟩
  · simp only [changeVals]
    rw [changeVals_eq _ _ _ _ (by simpa [Dict.keys] using hnd), List.nil_append]
    refine (h.perm.flatMap_right _).trans (List.Perm.of_eq ?_)
    simp only [A.change]
    rw [filter_flatMap_const (q := fun e => e.live c), List.flatMap_map, List.map_flatMap]
    · refine List.flatMap_congr fun e _ => ?_
      simp [List.map_map, Function.comp_def]
    · intro e b hb
      obtain ⟨t, -, rfl⟩ := List.mem_map.1 hb
      rfl
  · simp only [A.change]
    rw [List.map_flatMap]
    refine ha.sublist (flatMap_sublist_right _ fun e => ?_)
    rw [List.map_map]
    simpa [Function.comp_def] using changeKept_sublist tbl unuse e.key

/-! ## Values -/

/-- The arguments that a template reads, and whether it does without. -/
def Q.reads : Q → List (Str × Bool)
  | .arg k => [(k, false)]
  | .argOr k _ | .argOrRecv k => [(k, true)]
  | _ => []

/-- Make it known whether these keys are there. `strict`: a key that may be missing is not accepted. -/
def settle (strict : Bool) (f : A → Bool) : List (Str × Bool) → A → Bool
  | [], a => f a
  | (k, opt) :: rest, a =>
    match a.find k with
    | none => if opt then settle strict f rest a else !strict
    | some e =>
      match e.cond with
      | none => settle strict f rest a
      | some p =>
        if opt then settle strict f rest (a.assume p) && settle strict f rest (a.deny p)
        else !strict && settle strict f rest (a.assume p)

theorem settle_sound {c : Call} {strict : Bool} {f : A → Bool} (ks : List (Str × Bool)) {a : A} {s : St} (h : Rel c a s)
    (hc : settle strict f ks a = true) :
    (∃ a', Rel c a' s ∧ f a' = true) ∨ (strict = false ∧ ∃ k, (k, false) ∈ ks ∧ s.kw.get? k = none) := by
  induction ks generalizing a with
  | nil => exact Or.inl ⟨a, h, hc⟩
  | cons ko rest ih =>
    obtain ⟨k, opt⟩ := ko
    have lift : ∀ {a'}, Rel c a' s → settle strict f rest a' = true →
        (∃ a', Rel c a' s ∧ f a' = true) ∨ (strict = false ∧ ∃ j, (j, false) ∈ (k, opt) :: rest ∧ s.kw.get? j = none) := by
      intro a' h' hc'
      rcases ih h' hc' with hl | ⟨hs, j, hj, hg⟩
      · exact Or.inl hl
      · exact Or.inr ⟨hs, j, List.mem_cons_of_mem _ hj, hg⟩
    simp only [settle] at hc
    split at hc
    · next hf =>
      split at hc
      · exact lift h hc
      · next ho =>
        simp only [Bool.not_eq_true] at ho
        subst ho
        exact Or.inr ⟨by simpa using hc, k, List.mem_cons_self .., h.get_none hf⟩
    · next e hf =>
      obtain ⟨he, hk⟩ := find_some hf
      split at hc
      · exact lift h hc
      · next p hp =>
        cases hap : c.args.has p with
        | true =>
          split at hc
          · exact lift (h.assume hap) (by simp only [Bool.and_eq_true] at hc; exact hc.1)
          · exact lift (h.assume hap) (by simp only [Bool.and_eq_true] at hc; exact hc.2)
        | false =>
          split at hc
          · exact lift (h.deny hap) (by simp only [Bool.and_eq_true] at hc; exact hc.2)
          · next ho =>
            simp only [Bool.not_eq_true] at ho
            subst ho
            simp only [Bool.and_eq_true, Bool.not_eq_true'] at hc
            refine Or.inr ⟨hc.1, k, List.mem_cons_self .., ?_⟩
            rw [← hk]
            exact h.get_dead he (by simp [Ent.live, hp, hap])

def Q.val (api : Val) (a : A) : Q → Option Val
  | .lit t => some [.code t]
  | .arg k =>
    match a.find k with
    | some e => if e.cond.isNone then some e.val else none
    | none => none
  | .argOr k dflt =>
    match a.find k with
    | some e => if e.cond.isNone then some e.val else none
    | none => some [.code dflt]
  | .argOrRecv k =>
    match a.find k with
    | some e => if e.cond.isNone then some e.val else none
    | none => some [.recv]
  | .var x => a.loc.get? x
  | .edit e x => (a.loc.get? x).bind (editVal e)
  | .recv => some [.recv]
  | .api => some api
  | .fresh t => some [.name t]
  | .kws _ => none

theorem Rel.find_get {c : Call} {a : A} {s : St} (h : Rel c a s) {k : Str} {e : Ent} (hf : a.find k = some e)
    (hc : e.cond.isNone = true) : s.kw.get? k = some e.val := by
  obtain ⟨he, rfl⟩ := find_some hf
  exact h.get_live he (by rw [Option.isNone_iff_eq_none] at hc; simp [Ent.live, hc])

theorem val_eval {c : Call} {a : A} {s : St} (h : Rel c a s) {q : Q} {v : Val} (hv : q.val c.api a = some v) :
    q.eval c s = some v := by
  cases q with
  | arg k =>
    simp only [Q.val] at hv
    split at hv
    · next e hf =>
      split at hv
      · next hc => rw [← hv]; exact h.find_get hf hc
      · simp at hv
    · simp at hv
  | argOr k d =>
    simp only [Q.val] at hv
    split at hv
    · next e hf =>
      split at hv
      · next hc => simp only [Q.eval, h.find_get hf hc]; exact hv
      · simp at hv
    · next hf => simp only [Q.eval, h.get_none hf]; exact hv
  | argOrRecv k =>
    simp only [Q.val] at hv
    split at hv
    · next e hf =>
      split at hv
      · next hc => simp only [Q.eval, h.find_get hf hc]; exact hv
      · simp at hv
    · next hf => simp only [Q.eval, h.get_none hf]; exact hv
  | var x => simp only [Q.val] at hv; simp only [Q.eval, h.loc, hv]
  | edit e x => simp only [Q.val] at hv; simp only [Q.eval, h.loc, hv]
  | kws ex => simp [Q.val] at hv
  | _ => exact hv

def valAll (api : Val) (a : A) : List Q → Option Val
  | [] => some []
  | q :: qs =>
    match q.val api a, valAll api a qs with
    | some v, some w => some (v ++ w)
    | _, _ => none

theorem valAll_eval {c : Call} {a : A} {s : St} (h : Rel c a s) {qs : List Q} {v : Val} (hv : valAll c.api a qs = some v) :
    evalAll c s qs = some v := by
  induction qs generalizing v with
  | nil => exact hv
  | cons q qs ih =>
    simp only [valAll] at hv
    split at hv
    · next v' w h1 h2 => simp only [evalAll, val_eval h h1, ih h2]; exact hv
    · simp at hv

theorem eval_missing {c : Call} {s : St} {qs : List Q} {k : Str} (hk : (k, false) ∈ qs.flatMap Q.reads)
    (hg : s.kw.get? k = none) : evalAll c s qs = none := by
  induction qs with
  | nil => simp at hk
  | cons q qs ih =>
    rw [List.flatMap_cons, List.mem_append] at hk
    rcases hk with hk | hk
    · have : q.eval c s = none := by
        cases q <;> simp [Q.reads] at hk
        subst hk; exact hg
      simp [evalAll, this]
    · simp only [evalAll, ih hk]
      cases q.eval c s <;> rfl

/-! ## Tests -/

def Piece.isCode : Piece → Bool
  | .code _ => true
  | _ => false

/-- The result of a test, if it is the same for all calls. `focus` is an argument whose text is not plain. -/
def decideTst (focus : Option Str) (t : Tst) (v : Val) : Option Bool :=
  if v.all Piece.isCode then some (t.holds (v.flatMap fun
    | .code s => s
    | _ => []))
  else
    match v, t, focus with
    | [.user k], .isText s, some f => if k == f && decide (Plain s) then some false else none
    | _, _, _ => none

theorem text_code (c : Call) {v : Val} (h : v.all Piece.isCode = true) : c.text v = v.flatMap fun
    | .code s => s
    | _ => [] := by
  unfold Call.text Spec.print
  refine List.flatMap_congr fun p hp => ?_
  have := List.all_eq_true.1 h p hp
  cases p <;> simp_all [Piece.isCode, Piece.text]

/-- The argument is given, and its text is not plain. -/
def Focused (c : Call) (focus : Option Str) : Prop := ∀ k, focus = some k → ∃ t, c.args.get? k = some t ∧ ¬Plain t

theorem decideTst_sound {c : Call} {focus : Option Str} (hf : Focused c focus) {t : Tst} {v : Val} {b : Bool}
    (h : decideTst focus t v = some b) : t.holds (c.text v) = b := by
  unfold decideTst at h
  split at h
  · next ha => rw [text_code c ha]; simpa using h
  · split at h
    · next k s f _ =>
      split at h
      · next hb =>
        simp only [Bool.and_eq_true, beq_iff_eq, decide_eq_true_eq] at hb
        obtain ⟨w, hw, hn⟩ := hf f rfl
        simp only [Option.some.injEq] at h
        subst h
        have ht : c.text [Piece.user k] = w := by simp [Call.text, Spec.print, Piece.text, hb.1, hw]
        rw [ht]
        simp only [Tst.holds, beq_eq_false_iff_ne, ne_eq]
        intro e
        exact hn (e ▸ hb.2)
      · simp at h
    · simp at h

/-! ## The check -/

structure Ctx where
  api : Val
  strict : Bool
  focus : Option Str
  /-- what is checked where the matcher returns code -/
  fin : A → List Q → Bool

def K.check (x : Ctx) : K → A → Bool
  | .emit qs => settle x.strict (fun a => x.fin a qs) (qs.flatMap Q.reads)
  | .set k qs next => settle x.strict (fun a => match valAll x.api a qs with
      | some v => next.check x (a.put k v)
      | none => false) (qs.flatMap Q.reads)
  | .front k qs next => settle x.strict (fun a => match valAll x.api a qs, a.find k with
      | some v, none => next.check x (a.put k v)
      | _, _ => false) (qs.flatMap Q.reads)
  | .drop k next => fun a => next.check x (a.del k)
  | .save y qs next => settle x.strict (fun a => match valAll x.api a qs with
      | some v => next.check x { a with loc := a.loc.set y v }
      | none => false) (qs.flatMap Q.reads)
  | .change tbl unuse next => fun a => a.apart tbl && next.check x (a.change tbl unuse)
  | .has k y z => fun a =>
    match a.find k with
    | none => z.check x a
    | some e =>
      match e.cond with
      | none => y.check x a
      | some p => y.check x (a.assume p) && z.check x (a.deny p)
  | .ask q t y z => settle x.strict (fun a => match q.val x.api a with
      | none => false
      | some v =>
        match decideTst x.focus t v with
        | some b => if b then y.check x a else z.check x a
        | none => y.check x a && z.check x a) ([q].flatMap Q.reads)
  | .empty y z => fun a => (a.ents.any (·.cond.isNone) || y.check x a) && z.check x a
  | .left => fun _ => true
  | .fail => fun _ => !x.strict

/-- The result of `return` of a filled template. -/
def emitOut (c : Call) (s : St) (qs : List Q) : Out :=
  match evalAll c s qs with
  | some v => .code v
  | none => .error

theorem check_sound {x : Ctx} {c : Call} (hapi : c.api = x.api) (hf : Focused c x.focus) {P : Out → Prop} (hl : P .left)
    (he : x.strict = false → P .error)
    (hfin : ∀ a s qs, Rel c a s → x.fin a qs = true → P (emitOut c s qs)) (g : K) {a : A} {s : St} (h : Rel c a s)
    (hc : g.check x a = true) : P (g.run c s) := by
  induction g generalizing a s with
  | emit qs =>
    show P (emitOut c s qs)
    simp only [K.check] at hc
    rcases settle_sound _ h hc with ⟨a', h', hc'⟩ | ⟨hs, k, hk, hg⟩
    · exact hfin a' s qs h' hc'
    · unfold emitOut; rw [eval_missing hk hg]; exact he hs
  | set k qs next ih =>
    simp only [K.check] at hc
    simp only [K.run]
    rcases settle_sound _ h hc with ⟨a', h', hc'⟩ | ⟨hs, j, hj, hg⟩
    · split at hc'
      · next v hv =>
        rw [valAll_eval h' (hapi ▸ hv)]
        exact ih (h'.put k v) hc'
      · simp at hc'
    · rw [eval_missing hj hg]; exact he hs
  | front k qs next ih =>
    simp only [K.check] at hc
    simp only [K.run]
    rcases settle_sound _ h hc with ⟨a', h', hc'⟩ | ⟨hs, j, hj, hg⟩
    · split at hc'
      · next v hv hk =>
        rw [valAll_eval h' (hapi ▸ hv)]
        exact ih (h'.front hk v) hc'
      · simp at hc'
    · rw [eval_missing hj hg]; exact he hs
  | drop k next ih =>
    simp only [K.check] at hc
    exact ih (h.del k) hc
  | save y qs next ih =>
    simp only [K.check] at hc
    simp only [K.run]
    rcases settle_sound _ h hc with ⟨a', h', hc'⟩ | ⟨hs, j, hj, hg⟩
    · split at hc'
      · next v hv =>
        rw [valAll_eval h' (hapi ▸ hv)]
        exact ih (a := { a' with loc := a'.loc.set y v }) (s := { s with loc := s.loc.set y v })
          ⟨h'.perm, h'.nd, by simp [h'.loc]⟩ hc'
      · simp at hc'
    · rw [eval_missing hj hg]; exact he hs
  | change tbl unuse next ih =>
    simp only [K.check, Bool.and_eq_true] at hc
    exact ih (h.change tbl unuse hc.1) hc.2
  | has k y z ihy ihz =>
    simp only [K.check] at hc
    simp only [K.run, has_eq]
    split at hc
    · next hn => simpa [h.get_none hn] using ihz h hc
    · next e hk =>
      obtain ⟨hmem, hkey⟩ := find_some hk
      split at hc
      · next hcd => simpa [h.find_get hk (by simp [hcd])] using ihy h hc
      · next p hp =>
        simp only [Bool.and_eq_true] at hc
        cases hap : c.args.has p with
        | true =>
          have := h.get_live hmem (by simp [Ent.live, hp, hap])
          rw [hkey] at this
          simpa [this] using ihy (h.assume hap) hc.1
        | false =>
          have := h.get_dead hmem (by simp [Ent.live, hp, hap])
          rw [hkey] at this
          simpa [this] using ihz (h.deny hap) hc.2
  | ask q t y z ihy ihz =>
    simp only [K.check] at hc
    simp only [K.run]
    rcases settle_sound _ h hc with ⟨a', h', hc'⟩ | ⟨hs, j, hj, hg⟩
    · split at hc'
      · simp at hc'
      · next v hv =>
        rw [val_eval h' (hapi ▸ hv)]
        simp only
        split at hc'
        · next b hb =>
          rw [decideTst_sound hf hb]
          cases b with
          | true => simpa using ihy h' (by simpa using hc')
          | false => simpa using ihz h' (by simpa using hc')
        · simp only [Bool.and_eq_true] at hc'
          split
          · exact ihy h' hc'.1
          · exact ihz h' hc'.2
    · have hm := eval_missing (c := c) hj hg
      have : q.eval c s = none := by
        simp only [evalAll] at hm
        cases hq : q.eval c s with
        | none => rfl
        | some v => rw [hq] at hm; simp at hm
      rw [this]; exact he hs
  | empty y z ihy ihz =>
    simp only [K.check, Bool.and_eq_true, Bool.or_eq_true] at hc
    simp only [K.run]
    split
    · next hem =>
      refine ihy h (hc.1.resolve_left fun hany => ?_)
      obtain ⟨e, hmem, hcd⟩ := List.any_eq_true.1 hany
      have := h.get_live hmem (by rw [Option.isNone_iff_eq_none] at hcd; simp [Ent.live, hcd])
      rw [List.isEmpty_iff.1 hem] at this
      simp [Dict.get?] at this
    · exact ihz h hc.2
  | left => exact hl
  | fail => simp only [K.check, Bool.not_eq_true'] at hc; exact he hc

/-! ## Counting -/

theorem count_append (f : Focus) (v w : Val) : count f (v ++ w) = count f v + count f w := by simp [count]

theorem count_code (f : Focus) (s : Str) (v : Val) : count f (.code s :: v) = count f v := by
  cases f <;> simp [count, Piece.shows]

theorem count_kws (f : Focus) : ∀ d : Dict Str Val, count f (kwsVal d) = (d.map fun kv => count f kv.2).sum
  | [] => by simp [kwsVal, count]
  | [(k, v)] => by simp [kwsVal, count_code]
  | (k, v) :: kv :: d => by
    rw [kwsVal, count_code, count_append, count_code, count_kws f (kv :: d)]
    · simp
    · simp

/-- The least and the most that a template contributes. -/
def Q.lo (f : Focus) (api : Val) (a : A) : Q → Nat
  | .kws ex => ((a.ents.filter fun e => e.cond.isNone && !ex.contains e.key).map fun e => count f e.val).sum
  | q => match q.val api a with
    | some v => count f v
    | none => 0

def Q.hi (f : Focus) (api : Val) (a : A) : Q → Nat
  | .kws ex => ((a.ents.filter fun e => !ex.contains e.key).map fun e => count f e.val).sum
  | q => match q.val api a with
    | some v => count f v
    | none => 0

def Q.known (api : Val) (a : A) : Q → Bool
  | .kws _ => true
  | q => (q.val api a).isSome

theorem sum_sublist {α : Type} (g : α → Nat) {l₁ l₂ : List α} (h : l₁.Sublist l₂) : (l₁.map g).sum ≤ (l₂.map g).sum := by
  induction h with
  | slnil => simp
  | cons a _ ih => simp only [List.map_cons, List.sum_cons]; omega
  | cons_cons a _ ih => simp only [List.map_cons, List.sum_cons]; omega

theorem filter_sublist_filter {α : Type} (l : List α) {p q : α → Bool} (h : ∀ a ∈ l, p a = true → q a = true) :
    (l.filter p).Sublist (l.filter q) := by
  induction l with
  | nil => exact List.Sublist.refl _
  | cons a l ih =>
    have ih := ih fun b hb => h b (List.mem_cons_of_mem _ hb)
    by_cases hp : p a = true
    · rw [List.filter_cons_of_pos hp, List.filter_cons_of_pos (h a (List.mem_cons_self ..) hp)]
      exact ih.cons_cons a
    · rw [List.filter_cons_of_neg hp]
      by_cases hq : q a = true
      · rw [List.filter_cons_of_pos hq]; exact ih.cons a
      · rw [List.filter_cons_of_neg hq]; exact ih

theorem kws_bounds {c : Call} {a : A} {s : St} (h : Rel c a s) (f : Focus) (ex : List Str) :
    (Q.kws ex).lo f c.api a ≤ count f (kwsVal (s.kw.filter fun kv => !ex.contains kv.1)) ∧
      count f (kwsVal (s.kw.filter fun kv => !ex.contains kv.1)) ≤ (Q.kws ex).hi f c.api a := by
  have hp := ((h.perm.filter fun kv => !ex.contains kv.1).map fun kv => count f kv.2).sum_nat
  have hsum : count f (kwsVal (s.kw.filter fun kv => !ex.contains kv.1)) =
      ((a.ents.filter fun e => !ex.contains e.key && e.live c).map fun e => count f e.val).sum := by
    rw [count_kws, hp, List.filter_map, List.map_map, List.filter_filter]
    rfl
  rw [hsum]
  constructor
  · refine sum_sublist _ (filter_sublist_filter _ fun e _ he => ?_)
    simp only [Bool.and_eq_true] at he
    have := Option.isNone_iff_eq_none.1 he.1
    simp only [Bool.and_eq_true]
    exact ⟨he.2, by simp [Ent.live, this]⟩
  · refine sum_sublist _ (filter_sublist_filter _ fun e _ he => ?_)
    simp only [Bool.and_eq_true] at he
    exact he.1

theorem q_bounds {c : Call} {a : A} {s : St} (h : Rel c a s) (f : Focus) {q : Q} (hk : q.known c.api a = true) {v : Val}
    (hv : q.eval c s = some v) : q.lo f c.api a ≤ count f v ∧ count f v ≤ q.hi f c.api a := by
  by_cases hq : ∃ ex, q = .kws ex
  · obtain ⟨ex, rfl⟩ := hq
    simp only [Q.eval, Option.some.injEq] at hv
    subst hv
    exact kws_bounds h f ex
  · have hval : ∃ w, q.val c.api a = some w := by
      cases q <;> first | exact absurd ⟨_, rfl⟩ hq | exact Option.isSome_iff_exists.1 hk
    obtain ⟨w, hw⟩ := hval
    have hvw : w = v := by
      have := val_eval h hw
      rw [hv] at this
      simpa using this.symm
    subst hvw
    have h1 : q.lo f c.api a = count f w := by
      cases q <;> first | exact absurd ⟨_, rfl⟩ hq | simp only [Q.lo, hw]
    have h2 : q.hi f c.api a = count f w := by
      cases q <;> first | exact absurd ⟨_, rfl⟩ hq | simp only [Q.hi, hw]
    omega

theorem emit_bounds {c : Call} {a : A} {s : St} (h : Rel c a s) (f : Focus) {qs : List Q}
    (hk : qs.all (Q.known c.api a) = true) {v : Val} (hv : evalAll c s qs = some v) :
    (qs.map (Q.lo f c.api a)).sum ≤ count f v ∧ count f v ≤ (qs.map (Q.hi f c.api a)).sum := by
  induction qs generalizing v with
  | nil => simp only [evalAll, Option.some.injEq] at hv; subst hv; simp [count]
  | cons q qs ih =>
    simp only [List.all_cons, Bool.and_eq_true] at hk
    simp only [evalAll] at hv
    split at hv
    · next v' w h1 h2 =>
      simp only [Option.some.injEq] at hv
      subst hv
      have hq := q_bounds h f hk.1 h1
      have hr := ih hk.2 h2
      simp only [count_append, List.map_cons, List.sum_cons]
      omega
    · simp at hv

theorem emit_known {c : Call} {a : A} {s : St} (h : Rel c a s) {qs : List Q} (hk : qs.all (Q.known c.api a) = true) :
    ∃ v, evalAll c s qs = some v := by
  induction qs with
  | nil => exact ⟨[], rfl⟩
  | cons q qs ih =>
    simp only [List.all_cons, Bool.and_eq_true] at hk
    obtain ⟨w, hw⟩ := ih hk.2
    have : ∃ v, q.eval c s = some v := by
      cases q with
      | kws ex => exact ⟨_, rfl⟩
      | _ =>
        have hk := hk.1
        simp only [Q.known] at hk
        obtain ⟨v, hv⟩ := Option.isSome_iff_exists.1 hk
        exact ⟨v, val_eval h hv⟩
    obtain ⟨v, hv⟩ := this
    exact ⟨v ++ w, by simp [evalAll, hv, hw]⟩

/-! ## The first description -/

/-- All the calls with these parameters, of which those in `sure` are given. -/
def A.start (params sure : List Str) : A where
  ents := params.map fun k => ⟨k, if sure.contains k then none else some k, [.user k]⟩
  loc := []

theorem Rel.start {c : Call} (hwf : c.args.WF) {params sure : List Str} (hp : params.Nodup)
    (hk : ∀ k ∈ c.args.keys, k ∈ params) (hs : ∀ k ∈ sure, k ∈ c.args.keys) : Rel c (A.start params sure) c.start := by
  have hlive : ∀ k, Ent.live c ⟨k, if sure.contains k then none else some k, [.user k]⟩ = c.args.has k := by
    intro k
    by_cases h : sure.contains k = true
    · have := hs k (by simpa using h)
      simp [Ent.live, show k ∈ sure by simpa using h, Dict.has_iff.2 this]
    · simp [Ent.live, show k ∉ sure by simpa using h]
  refine ⟨?_, ?_, rfl⟩
  · simp only [A.start, Call.start, List.filter_map, List.map_map]
    have h1 : (c.args.map fun kv => (kv.1, [Piece.user kv.1])) = c.args.keys.map fun k => (k, [Piece.user k]) := by
      simp [Dict.keys, List.map_map, Function.comp_def]
    rw [h1]
    refine List.Perm.map _ ?_
    refine (List.perm_ext_iff_of_nodup hwf (hp.filter _)).2 fun k => ?_
    rw [List.mem_filter]
    simp only [Function.comp_apply, hlive]
    exact ⟨fun h => ⟨hk k h, Dict.has_iff.2 h⟩, fun h => Dict.has_iff.1 h.2⟩
  · simpa [A.start, List.map_map, Function.comp_def] using hp

/-- The check for calls that give not both arguments of a pair. -/
def K.checkAll (x : Ctx) (g : K) (sure : List Str) : List (Str × Str) → A → Bool
  | [], a => g.check x a
  | (p, q) :: rest, a =>
    (sure.contains p || g.checkAll x sure rest (a.deny p)) && (sure.contains q || g.checkAll x sure rest (a.deny q))

theorem checkAll_sound {x : Ctx} {c : Call} (hapi : c.api = x.api) (hf : Focused c x.focus) {P : Out → Prop} (hl : P .left)
    (he : x.strict = false → P .error) (hfin : ∀ a s qs, Rel c a s → x.fin a qs = true → P (emitOut c s qs)) (g : K)
    {sure : List Str} (hs : ∀ k ∈ sure, k ∈ c.args.keys) {pairs : List (Str × Str)}
    (hp : ∀ p ∈ pairs, p.1 ∈ c.args.keys → p.2 ∉ c.args.keys) {a : A} {s : St} (h : Rel c a s)
    (hc : g.checkAll x sure pairs a = true) : P (g.run c s) := by
  induction pairs generalizing a with
  | nil => exact check_sound hapi hf hl he hfin g h hc
  | cons pq rest ih =>
    obtain ⟨p, q⟩ := pq
    simp only [K.checkAll, Bool.and_eq_true, Bool.or_eq_true] at hc
    have hrest : ∀ p ∈ rest, p.1 ∈ c.args.keys → p.2 ∉ c.args.keys := fun r hr => hp r (List.mem_cons_of_mem _ hr)
    by_cases hpk : p ∈ c.args.keys
    · have hq := hp (p, q) (List.mem_cons_self ..) hpk
      have hq' : c.args.has q = false := by rw [← Bool.not_eq_true, Dict.has_iff]; exact hq
      exact ih hrest (h.deny hq') (hc.2.resolve_left fun hm => hq (hs q (by simpa using hm)))
    · have hp' : c.args.has p = false := by rw [← Bool.not_eq_true, Dict.has_iff]; exact hpk
      exact ih hrest (h.deny hp') (hc.1.resolve_left fun hm => hpk (hs p (by simpa using hm)))

/-- A check on all entries with a modelled matcher. -/
def onEntries (f : Str → Matcher.Cfg → K → Bool) (rs : List Data.Raw) : Bool :=
  rs.all fun r => matchers.all fun m => !(Nat.beq (Data.encode m.1) r.matcher) || f r.name r.cfg (m.2 r.name r.cfg)

/-- The table is checked in parts, which needs less memory. -/
def part (i : Nat) : List Data.Raw := (Data.apiTable.drop (100 * i)).take 100

set_option maxRecDepth 100000 in
theorem table_length : Data.apiTable.length = 2012 := by decide +kernel

theorem mem_part {r : Data.Raw} (hr : r ∈ Data.apiTable) : ∃ i < 21, r ∈ part i := by
  obtain ⟨j, hj, rfl⟩ := List.mem_iff_getElem.1 hr
  have hl := table_length
  refine ⟨j / 100, by omega, ?_⟩
  rw [List.mem_iff_getElem]
  refine ⟨j % 100, ?_, ?_⟩
  · simp only [part, List.length_take, List.length_drop]; omega
  · simp only [part, List.getElem_take, List.getElem_drop]
    congr 1
    omega

theorem onEntries_parts {f : Str → Matcher.Cfg → K → Bool} (h : ∀ i < 21, onEntries f (part i) = true) :
    onEntries f Data.apiTable = true := by
  rw [onEntries, List.all_eq_true]
  intro r hr
  obtain ⟨i, hi, hm⟩ := mem_part hr
  exact List.all_eq_true.1 (h i hi) r hm

end Verif.Template
