import Verif.Lemmas.TemplateCalls
import Verif.Spec.Flags

/-! # What a matcher writes if something is known about the text of an argument -/

namespace Verif.Template
open Verif
open Verif.Spec

/-- What is known about the text of an argument. -/
inductive Fact
  | is (t : Str)
  | notPlain
  deriving DecidableEq

def Fact.true (f : Fact) (t : Str) : Prop :=
  match f with
  | .is u => t = u
  | .notPlain => ¬Plain t

/-- The argument, and what is known. -/
abbrev Facts := Str × Fact

def decideBy (f : Facts) (t : Tst) (v : Val) : Option Bool :=
  match decideTst none t v with
  | some b => some b
  | none =>
    match v with
    | [.user k] => if k == f.1 then match f.2, t with
        | .is u, _ => some (t.holds u)
        | .notPlain, .isText s => if Plain s then some false else none
        | _, _ => none
      else none
    | _ => none

def Known (c : Call) (f : Facts) : Prop := ∃ t, c.args.get? f.1 = some t ∧ f.2.true t

theorem decideBy_sound {c : Call} {f : Facts} (hf : Known c f) {t : Tst} {v : Val} {b : Bool}
    (h : decideBy f t v = some b) : t.holds (c.text v) = b := by
  unfold decideBy at h
  split at h
  · next hb => rw [decideTst_sound (focus := none) (fun k hk => by simp at hk) hb]; simpa using h
  · split at h
    · next k =>
      split at h
      · next hk =>
        have hk := eq_of_beq hk
        subst hk
        obtain ⟨w, hw, hn⟩ := hf
        have ht : c.text [Piece.user f.1] = w := by simp [Call.text, Spec.print, Piece.text, hw]
        rw [ht]
        split at h
        · next u hu => rw [hu] at hn; simp only [Fact.true] at hn; subst hn; simpa using h
        · next s hu =>
          rw [hu] at hn
          simp only [Fact.true] at hn
          split at h
          · next hp =>
            simp only [Option.some.injEq] at h
            subst h
            simp only [Tst.holds, beq_eq_false_iff_ne, ne_eq]
            intro e
            exact hn (e ▸ hp)
          · simp at h
        · simp at h
      · simp at h
    · simp at h

/-- As `K.check`, with `f`. -/
def K.probe (api : Val) (f : Facts) (fin : A → List Q → Bool) : K → A → Bool
  | .emit qs => settle false (fun a => fin a qs) (qs.flatMap Q.reads)
  | .set k qs next => settle false (fun a => match valAll api a qs with
      | some v => next.probe api f fin (a.put k v)
      | none => false) (qs.flatMap Q.reads)
  | .front k qs next => settle false (fun a => match valAll api a qs, a.find k with
      | some v, none => next.probe api f fin (a.put k v)
      | _, _ => false) (qs.flatMap Q.reads)
  | .drop k next => fun a => next.probe api f fin (a.del k)
  | .save y qs next => settle false (fun a => match valAll api a qs with
      | some v => next.probe api f fin { a with loc := a.loc.set y v }
      | none => false) (qs.flatMap Q.reads)
  | .change tbl unuse next => fun a => a.apart tbl && next.probe api f fin (a.change tbl unuse)
  | .has k y z => fun a =>
    match a.find k with
    | none => z.probe api f fin a
    | some e =>
      match e.cond with
      | none => y.probe api f fin a
      | some p => y.probe api f fin (a.assume p) && z.probe api f fin (a.deny p)
  | .ask q t y z => settle false (fun a => match q.val api a with
      | none => false
      | some v =>
        match decideBy f t v with
        | some b => if b then y.probe api f fin a else z.probe api f fin a
        | none => y.probe api f fin a && z.probe api f fin a) ([q].flatMap Q.reads)
  | .empty y z => fun a => y.probe api f fin a && z.probe api f fin a
  | .left => fun _ => true
  | .fail => fun _ => true

theorem probe_sound {api : Val} {f : Facts} {fin : A → List Q → Bool} {c : Call} (hapi : c.api = api) (hf : Known c f)
    {P : Out → Prop} (hl : P .left) (he : P .error)
    (hfin : ∀ a s qs, Rel c a s → fin a qs = true → P (emitOut c s qs)) (g : K) {a : A} {s : St} (h : Rel c a s)
    (hc : g.probe api f fin a = true) : P (g.run c s) := by
  induction g generalizing a s with
  | emit qs =>
    show P (emitOut c s qs)
    simp only [K.probe] at hc
    rcases settle_sound _ h hc with ⟨a', h', hc'⟩ | ⟨-, k, hk, hg⟩
    · exact hfin a' s qs h' hc'
    · unfold emitOut; rw [eval_missing hk hg]; exact he
  | set k qs next ih =>
    simp only [K.probe] at hc
    simp only [K.run]
    rcases settle_sound _ h hc with ⟨a', h', hc'⟩ | ⟨-, j, hj, hg⟩
    · split at hc'
      · next v hv =>
        rw [valAll_eval h' (hapi ▸ hv)]
        exact ih (h'.put k v) hc'
      · simp at hc'
    · rw [eval_missing hj hg]; exact he
  | front k qs next ih =>
    simp only [K.probe] at hc
    simp only [K.run]
    rcases settle_sound _ h hc with ⟨a', h', hc'⟩ | ⟨-, j, hj, hg⟩
    · split at hc'
      · next v hv hk =>
        rw [valAll_eval h' (hapi ▸ hv)]
        exact ih (h'.front hk v) hc'
      · simp at hc'
    · rw [eval_missing hj hg]; exact he
  | drop k next ih =>
    simp only [K.probe] at hc
    exact ih (h.del k) hc
  | save y qs next ih =>
    simp only [K.probe] at hc
    simp only [K.run]
    rcases settle_sound _ h hc with ⟨a', h', hc'⟩ | ⟨-, j, hj, hg⟩
    · split at hc'
      · next v hv =>
        rw [valAll_eval h' (hapi ▸ hv)]
        exact ih (a := { a' with loc := a'.loc.set y v }) (s := { s with loc := s.loc.set y v })
          ⟨h'.perm, h'.nd, by simp [h'.loc]⟩ hc'
      · simp at hc'
    · rw [eval_missing hj hg]; exact he
  | change tbl unuse next ih =>
    simp only [K.probe, Bool.and_eq_true] at hc
    exact ih (h.change tbl unuse hc.1) hc.2
  | has k y z ihy ihz =>
    simp only [K.probe] at hc
    simp only [K.run, has_eq]
    split at hc
    · next hn => simpa [h.get_none hn] using ihz h hc
    · next e hk =>
      obtain ⟨hmem, hkey⟩ := find_some hk
      split at hc
      · next hcd => simpa [h.find_get hk (by simp [hcd])] using ihy h hc
      · next p hp =>
        simp only [Bool.and_eq_true] at hc
        cases hap : c.args.has p with
        | true =>
          have := h.get_live hmem (by simp [Ent.live, hp, hap])
          rw [hkey] at this
          simpa [this] using ihy (h.assume hap) hc.1
        | false =>
          have := h.get_dead hmem (by simp [Ent.live, hp, hap])
          rw [hkey] at this
          simpa [this] using ihz (h.deny hap) hc.2
  | ask q t y z ihy ihz =>
    simp only [K.probe] at hc
    simp only [K.run]
    rcases settle_sound _ h hc with ⟨a', h', hc'⟩ | ⟨-, j, hj, hg⟩
    · split at hc'
      · simp at hc'
      · next v hv =>
        rw [val_eval h' (hapi ▸ hv)]
        simp only
        split at hc'
        · next b hb =>
          rw [decideBy_sound hf hb]
          cases b with
          | true => simpa using ihy h' (by simpa using hc')
          | false => simpa using ihz h' (by simpa using hc')
        · simp only [Bool.and_eq_true] at hc'
          split
          · exact ihy h' hc'.1
          · exact ihz h' hc'.2
    · have hm := eval_missing (c := c) hj hg
      have : q.eval c s = none := by
        simp only [evalAll] at hm
        cases hq : q.eval c s with
        | none => rfl
        | some v => rw [hq] at hm; simp at hm
      rw [this]; exact he
  | empty y z ihy ihz =>
    simp only [K.probe, Bool.and_eq_true] at hc
    simp only [K.run]
    split
    · exact ihy h hc.1
    · exact ihz h hc.2
  | left => exact hl
  | fail => exact he

/-! ## The option in the code -/

theorem kwsVal_cons (k : Str) (v : Val) (d : Dict Str Val) :
    kwsVal ((k, v) :: d) = .code (k ++ py"=") :: (v ++ if d = [] then [] else .code py", " :: kwsVal d) := by
  cases d <;> simp [kwsVal]

/-- A keyword argument is in the list, with a comma or the end behind it. -/
theorem kws_has {d : Dict Str Val} {k : Str} {v : Val} (h : (k, v) ∈ d) :
    (∃ p, kwsVal d = p ++ .code (k ++ py"=") :: v) ∨ .code (k ++ py"=") :: (v ++ [.code py", "]) <:+: kwsVal d := by
  induction d with
  | nil => simp at h
  | cons kv d ih =>
    obtain ⟨k', v'⟩ := kv
    rw [kwsVal_cons]
    rcases List.mem_cons.1 h with h | h
    · simp only [Prod.mk.injEq] at h
      obtain ⟨rfl, rfl⟩ := h
      by_cases hd : d = []
      · left; exact ⟨[], by simp [hd]⟩
      · right; exact ⟨[], kwsVal d, by simp [hd]⟩
    · have hd : d ≠ [] := List.ne_nil_of_mem h
      rw [if_neg hd]
      rcases ih h with ⟨p, hp⟩ | ⟨p, q, hp⟩
      · left; exact ⟨.code (k' ++ py"=") :: (v' ++ .code py", " :: p), by simp [hp]⟩
      · right; exact ⟨.code (k' ++ py"=") :: (v' ++ .code py", " :: p), q, by simp [← hp]⟩

/-- The arguments are written with this option, and a parenthesis behind them. -/
def writes (o : Str) : List Q → Bool
  | .kws ex :: .lit s :: rest => (!ex.contains o && s.head? == some ')') || writes o (.lit s :: rest)
  | _ :: rest => writes o rest
  | [] => false

theorem writes_sound {c : Call} {s : St} {o : Str} {v : Val} (hg : s.kw.get? o = some v) :
    ∀ {qs : List Q} {w : Val}, writes o qs = true → evalAll c s qs = some w → Sets o v w
  | [], _, h, _ => by simp [writes] at h
  | q :: qs, w, h, hw => by
    have htail : ∀ q qs w, evalAll c s (q :: qs) = some w → ∃ a b, q.eval c s = some a ∧ evalAll c s qs = some b ∧ w = a ++ b := by
      intro q qs w hw
      simp only [evalAll] at hw
      split at hw
      · next a b ha hb => exact ⟨a, b, ha, hb, by simpa using hw.symm⟩
      · simp at hw
    have hrec : writes o qs = true → Sets o v w := by
      intro h
      obtain ⟨a, b, -, hb, rfl⟩ := htail q qs w hw
      obtain ⟨t, ht, x, y, hx⟩ := writes_sound hg h hb
      exact ⟨t, ht, a ++ x, y, by simp [← hx]⟩
    unfold writes at h
    split at h
    · next ex t rest heq =>
      simp only [List.cons.injEq] at heq
      obtain ⟨rfl, rfl⟩ := heq
      rw [Bool.or_eq_true] at h
      rcases h with h | h
      · simp only [Bool.and_eq_true, Bool.not_eq_true', beq_iff_eq] at h
        obtain ⟨a, b, ha, hb, rfl⟩ := htail _ _ _ hw
        obtain ⟨l, b', hl, -, rfl⟩ := htail _ _ _ hb
        simp only [Q.eval, Option.some.injEq] at ha hl
        subst ha hl
        have hm : (o, v) ∈ s.kw.filter fun kv => !ex.contains kv.1 :=
          List.mem_filter.2 ⟨Dict.mem_of_get? hg, by simpa using h.1⟩
        rcases kws_has hm with ⟨p, hp⟩ | ⟨p, q, hp⟩
        · exact ⟨t, .inr h.2, p, b', by rw [hp]; simp⟩
        · exact ⟨py", ", .inl rfl, p, q ++ (.code t :: b'), by rw [← hp]; simp⟩
      · exact hrec h
    · next heq =>
      simp only [List.cons.injEq] at heq
      obtain ⟨rfl, rfl⟩ := heq
      exact hrec h
    · next heq => simp at heq

/-- The piece does not occur. -/
def Q.free (p : Piece) (api : Val) : Q → Bool
  | .lit s => !(p == .code s)
  | .argOr _ d => !(p == .code d)
  | .api => !api.contains p
  | .edit _ _ => false
  | _ => true

def absent (o : Str) (api : Val) (a : A) (qs : List Q) : Bool :=
  (a.ents.all fun e => !(e.key == o) && !e.val.contains (.code (o ++ py"="))) &&
    (a.loc.all fun kv => !kv.2.contains (.code (o ++ py"="))) && !(Piece.code (o ++ py"=") == .code py", ") &&
    qs.all (Q.free (.code (o ++ py"=")) api)

theorem kws_absent {d : Dict Str Val} {o : Str} (h : ∀ kv ∈ d, kv.1 ≠ o ∧ .code (o ++ py"=") ∉ kv.2)
    (hc : Piece.code (o ++ py"=") ≠ .code py", ") : .code (o ++ py"=") ∉ kwsVal d := by
  induction d with
  | nil => simp [kwsVal]
  | cons kv d ih =>
    obtain ⟨k, v⟩ := kv
    have hk := h (k, v) (List.mem_cons_self ..)
    have ih := ih fun kv hkv => h kv (List.mem_cons_of_mem _ hkv)
    rw [kwsVal_cons]
    have hne : Piece.code (o ++ py"=") ≠ .code (k ++ py"=") := by
      intro e
      simp only [Piece.code.injEq, List.append_cancel_right_eq] at e
      exact hk.1 e.symm
    intro hm
    rcases List.mem_cons.1 hm with e | hm
    · exact hne e
    · rcases List.mem_append.1 hm with hm | hm
      · exact hk.2 hm
      · split at hm
        · simp at hm
        · rcases List.mem_cons.1 hm with e | hm
          · exact hc e
          · exact ih hm

theorem absent_sound {c : Call} {a : A} {s : St} (hrel : Rel c a s) {o : Str} {qs : List Q} {w : Val}
    (h : absent o c.api a qs = true) (hw : evalAll c s qs = some w) : .code (o ++ py"=") ∉ w := by
  simp only [absent, Bool.and_eq_true, List.all_eq_true, Bool.not_eq_true', beq_eq_false_iff_ne, ne_eq] at h
  obtain ⟨⟨⟨he, hl⟩, hc⟩, hq⟩ := h
  have hkw : ∀ kv ∈ s.kw, kv.1 ≠ o ∧ .code (o ++ py"=") ∉ kv.2 := by
    intro kv hkv
    obtain ⟨e, hem, rfl⟩ := List.mem_map.1 (hrel.perm.mem_iff.1 hkv)
    have := he e (List.mem_filter.1 hem).1
    exact ⟨this.1, by simpa using this.2⟩
  have hget : ∀ k v, s.kw.get? k = some v → .code (o ++ py"=") ∉ v := fun k v hv => (hkw _ (Dict.mem_of_get? hv)).2
  induction qs generalizing w with
  | nil => simp only [evalAll, Option.some.injEq] at hw; subst hw; simp
  | cons q qs ih =>
    simp only [evalAll] at hw
    split at hw
    · next x y hx hy =>
      simp only [Option.some.injEq] at hw
      subst hw
      have hy' := ih hy (fun q hq' => hq q (List.mem_cons_of_mem _ hq'))
      have hq := hq q (List.mem_cons_self ..)
      suffices .code (o ++ py"=") ∉ x by simp [this, hy']
      cases q with
      | lit t =>
        simp only [Q.eval, Option.some.injEq] at hx; subst hx
        simpa [Q.free] using hq
      | arg k => simp only [Q.eval] at hx; exact hget k x hx
      | argOr k d =>
        simp only [Q.eval, Option.some.injEq] at hx; subst hx
        cases hk : s.kw.get? k with
        | none => simpa [Q.free] using hq
        | some v => simpa using hget k v hk
      | argOrRecv k =>
        simp only [Q.eval, Option.some.injEq] at hx; subst hx
        cases hk : s.kw.get? k with
        | none => simp
        | some v => simpa using hget k v hk
      | var y =>
        simp only [Q.eval] at hx
        rw [hrel.loc] at hx
        simpa using hl _ (Dict.mem_of_get? hx)
      | edit e y => simp [Q.free] at hq
      | recv => simp only [Q.eval, Option.some.injEq] at hx; subst hx; simp
      | api =>
        simp only [Q.eval, Option.some.injEq] at hx; subst hx
        simpa [Q.free] using hq
      | fresh t => simp only [Q.eval, Option.some.injEq] at hx; subst hx; simp
      | kws ex =>
        simp only [Q.eval, Option.some.injEq] at hx; subst hx
        exact kws_absent (fun kv hkv => hkw kv (List.mem_filter.1 hkv).1) hc
    · simp at hw

/-- The code has `o=v`. -/
def setsFin (o : Str) (v : Val) (a : A) (qs : List Q) : Bool :=
  match a.find o with
  | some e => e.cond.isNone && e.val == v && writes o qs
  | none => false

theorem setsFin_sound {c : Call} {a : A} {s : St} (hrel : Rel c a s) {o : Str} {v : Val} {qs : List Q} {w : Val}
    (h : setsFin o v a qs = true) (hw : evalAll c s qs = some w) : Sets o v w := by
  unfold setsFin at h
  split at h
  · next e he =>
    simp only [Bool.and_eq_true, beq_iff_eq] at h
    obtain ⟨⟨hc, rfl⟩, h⟩ := h
    exact writes_sound (hrel.find_get he hc) h hw
  · simp at h

end Verif.Template
