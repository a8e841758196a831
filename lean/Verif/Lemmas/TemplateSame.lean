import Verif.Lemmas.TemplateCalls
import Verif.Spec.Spelling

/-! # Two calls with the same arguments, written differently -/

namespace Verif.Template
open Verif
open Verif.Spec

/-- Two calls that give the same arguments in the same order. -/
structure Alike (ok lit : Str → Bool) (c c' : Call) : Prop where
  keys : c.args.keys = c'.args.keys
  api : c.api = c'.api
  /-- these arguments have the same texts -/
  same : ∀ k, ok k = true → c.args.get? k = c'.args.get? k
  /-- these arguments are the same literals, or both no literals -/
  equiv : ∀ k, lit k = true → Equivalent (c.args.get? k) (c'.args.get? k)

theorem Alike.start {ok lit : Str → Bool} {c c' : Call} (h : Alike ok lit c c') : c.start = c'.start := by
  have : ∀ d : Dict Str Str, (d.map fun kv => (kv.1, [Piece.user kv.1])) = d.keys.map fun k => (k, [Piece.user k]) := by
    intro d; simp [Dict.keys, List.map_map, Function.comp_def]
  simp only [Call.start, this, h.keys]

theorem Alike.eval {ok lit : Str → Bool} {c c' : Call} (h : Alike ok lit c c') (s : St) (q : Q) : q.eval c s = q.eval c' s := by
  cases q <;> simp [Q.eval, h.api]

theorem Alike.evalAll {ok lit : Str → Bool} {c c' : Call} (h : Alike ok lit c c') (s : St) (qs : List Q) :
    evalAll c s qs = evalAll c' s qs := by
  induction qs with
  | nil => rfl
  | cons q qs ih => simp only [Template.evalAll, h.eval, ih]

/-- The text of the value is the same in both calls. -/
def fixedVal (ok : Str → Bool) (v : Val) : Bool := v.all fun
  | .code _ => true
  | .user k | .edited k _ => ok k
  | _ => false

theorem Alike.text {ok lit : Str → Bool} {c c' : Call} (h : Alike ok lit c c') {v : Val} (hv : fixedVal ok v = true) :
    c.text v = c'.text v := by
  unfold Call.text Spec.print
  refine List.flatMap_congr fun p hp => ?_
  have := List.all_eq_true.1 hv p hp
  cases p with
  | code s => rfl
  | user k => simp only [Piece.text, h.same k this]
  | edited k e => simp only [Piece.text, h.same k this]
  | recv => simp at this
  | name s => simp at this

/-- The test has the same result in both calls. -/
def fixedTst (ok lit : Str → Bool) (t : Tst) (v : Val) : Bool :=
  fixedVal ok v || match v, t with
    | [.user k], .isText s => lit k && decide (Plain s)
    | _, _ => false

theorem Alike.holds {ok lit : Str → Bool} {c c' : Call} (h : Alike ok lit c c') {t : Tst} {v : Val}
    (hv : fixedTst ok lit t v = true) : t.holds (c.text v) = t.holds (c'.text v) := by
  simp only [fixedTst, Bool.or_eq_true] at hv
  rcases hv with hv | hv
  · rw [h.text hv]
  · split at hv
    · next k s =>
      simp only [Bool.and_eq_true, decide_eq_true_eq] at hv
      have ht : ∀ c : Call, c.text [Piece.user k] = (c.args.get? k).getD [] := by
        intro c; simp [Call.text, Spec.print, Piece.text]
      rw [ht, ht]
      rcases h.equiv k hv.1 with e | ⟨a, b, ha, hb, hna, hnb⟩
      · rw [e]
      · rw [ha, hb]
        simp only [Tst.holds, Option.getD_some]
        have hne : ∀ x : Str, ¬Plain x → (x == s) = false := fun x hx =>
          beq_eq_false_iff_ne.2 fun e => hx (by rw [e]; exact hv.2)
        rw [hne a hna, hne b hnb]
    · simp at hv

/-- The tests have the same results in both calls. -/
def K.same (api : Val) (ok lit : Str → Bool) : K → A → Bool
  | .emit _ => fun _ => true
  | .set k qs next => settle false (fun a => match valAll api a qs with
      | some v => next.same api ok lit (a.put k v)
      | none => false) (qs.flatMap Q.reads)
  | .front k qs next => settle false (fun a => match valAll api a qs, a.find k with
      | some v, none => next.same api ok lit (a.put k v)
      | _, _ => false) (qs.flatMap Q.reads)
  | .drop k next => fun a => next.same api ok lit (a.del k)
  | .save y qs next => settle false (fun a => match valAll api a qs with
      | some v => next.same api ok lit { a with loc := a.loc.set y v }
      | none => false) (qs.flatMap Q.reads)
  | .change tbl unuse next => fun a => a.apart tbl && next.same api ok lit (a.change tbl unuse)
  | .has k y z => fun a =>
    match a.find k with
    | none => z.same api ok lit a
    | some e =>
      match e.cond with
      | none => y.same api ok lit a
      | some p => y.same api ok lit (a.assume p) && z.same api ok lit (a.deny p)
  | .ask q t y z => settle false (fun a => match q.val api a with
      | none => false
      | some v => fixedTst ok lit t v && y.same api ok lit a && z.same api ok lit a) ([q].flatMap Q.reads)
  | .empty y z => fun a => y.same api ok lit a && z.same api ok lit a
  | .left => fun _ => true
  | .fail => fun _ => true

theorem same_sound {ok lit : Str → Bool} {c c' : Call} (hcc : Alike ok lit c c') (g : K) {a : A} {s : St} (h : Rel c a s)
    (hc : g.same c.api ok lit a = true) : g.run c s = g.run c' s := by
  induction g generalizing a s with
  | emit qs => simp only [K.run, hcc.evalAll]
  | set k qs next ih =>
    simp only [K.same] at hc
    simp only [K.run, ← hcc.evalAll]
    rcases settle_sound _ h hc with ⟨a', h', hc'⟩ | ⟨-, j, hj, hg⟩
    · split at hc'
      · next v hv =>
        rw [valAll_eval h' hv]
        exact ih (h'.put k v) hc'
      · simp at hc'
    · rw [eval_missing hj hg]
  | front k qs next ih =>
    simp only [K.same] at hc
    simp only [K.run, ← hcc.evalAll]
    rcases settle_sound _ h hc with ⟨a', h', hc'⟩ | ⟨-, j, hj, hg⟩
    · split at hc'
      · next v hv hk =>
        rw [valAll_eval h' hv]
        exact ih (h'.front hk v) hc'
      · simp at hc'
    · rw [eval_missing hj hg]
  | drop k next ih =>
    simp only [K.same] at hc
    exact ih (h.del k) hc
  | save y qs next ih =>
    simp only [K.same] at hc
    simp only [K.run, ← hcc.evalAll]
    rcases settle_sound _ h hc with ⟨a', h', hc'⟩ | ⟨-, j, hj, hg⟩
    · split at hc'
      · next v hv =>
        rw [valAll_eval h' hv]
        exact ih (a := { a' with loc := a'.loc.set y v }) (s := { s with loc := s.loc.set y v })
          ⟨h'.perm, h'.nd, by simp [h'.loc]⟩ hc'
      · simp at hc'
    · rw [eval_missing hj hg]
  | change tbl unuse next ih =>
    simp only [K.same, Bool.and_eq_true] at hc
    exact ih (h.change tbl unuse hc.1) hc.2
  | has k y z ihy ihz =>
    simp only [K.same] at hc
    simp only [K.run, has_eq]
    split at hc
    · next hn => simpa [h.get_none hn] using ihz h hc
    · next e hk =>
      obtain ⟨hmem, hkey⟩ := find_some hk
      split at hc
      · next hcd => simpa [h.find_get hk (by simp [hcd])] using ihy h hc
      · next p hp =>
        simp only [Bool.and_eq_true] at hc
        cases hap : c.args.has p with
        | true =>
          have := h.get_live hmem (by simp [Ent.live, hp, hap])
          rw [hkey] at this
          simpa [this] using ihy (h.assume hap) hc.1
        | false =>
          have := h.get_dead hmem (by simp [Ent.live, hp, hap])
          rw [hkey] at this
          simpa [this] using ihz (h.deny hap) hc.2
  | ask q t y z ihy ihz =>
    simp only [K.same] at hc
    simp only [K.run, ← hcc.eval]
    rcases settle_sound _ h hc with ⟨a', h', hc'⟩ | ⟨-, j, hj, hg⟩
    · split at hc'
      · simp at hc'
      · next v hv =>
        simp only [Bool.and_eq_true] at hc'
        rw [val_eval h' hv]
        simp only [hcc.holds hc'.1.1]
        split
        · exact ihy h' hc'.1.2
        · exact ihz h' hc'.2
    · have hm := eval_missing (c := c) hj hg
      have : q.eval c s = none := by
        simp only [evalAll] at hm
        cases hq : q.eval c s with
        | none => rfl
        | some v => rw [hq] at hm; simp at hm
      rw [this]
  | empty y z ihy ihz =>
    simp only [K.same, Bool.and_eq_true] at hc
    simp only [K.run]
    split
    · exact ihy h hc.1
    · exact ihz h hc.2
  | left => rfl
  | fail => rfl

/-- The same for calls that do not give both arguments of a pair, and give those of `sure`. -/
def K.sameAll (api : Val) (ok lit : Str → Bool) (g : K) (sure : List Str) : List (Str × Str) → A → Bool
  | [], a => g.same api ok lit a
  | (p, q) :: rest, a => (sure.contains p || g.sameAll api ok lit sure rest (a.deny p)) &&
      (sure.contains q || g.sameAll api ok lit sure rest (a.deny q))

theorem sameAll_sound {ok lit : Str → Bool} {c c' : Call} (hcc : Alike ok lit c c') (g : K)
    {sure : List Str} (hs : ∀ k ∈ sure, k ∈ c.args.keys) {pairs : List (Str × Str)}
    (hp : ∀ p ∈ pairs, p.1 ∈ c.args.keys → p.2 ∉ c.args.keys) {a : A} {s : St} (h : Rel c a s)
    (hc : g.sameAll c.api ok lit sure pairs a = true) : g.run c s = g.run c' s := by
  induction pairs generalizing a with
  | nil => exact same_sound hcc g h hc
  | cons pq rest ih =>
    obtain ⟨p, q⟩ := pq
    simp only [K.sameAll, Bool.and_eq_true, Bool.or_eq_true] at hc
    have hrest : ∀ p ∈ rest, p.1 ∈ c.args.keys → p.2 ∉ c.args.keys := fun r hr => hp r (List.mem_cons_of_mem _ hr)
    by_cases hpk : p ∈ c.args.keys
    · have hq := hp (p, q) (List.mem_cons_self ..) hpk
      have hq' : c.args.has q = false := by rw [← Bool.not_eq_true, Dict.has_iff]; exact hq
      exact ih hrest (h.deny hq') (hc.2.resolve_left fun hm => hq (hs q (by simpa using hm)))
    · have hp' : c.args.has p = false := by rw [← Bool.not_eq_true, Dict.has_iff]; exact hpk
      exact ih hrest (h.deny hp') (hc.1.resolve_left fun hm => hpk (hs p (by simpa using hm)))

end Verif.Template
