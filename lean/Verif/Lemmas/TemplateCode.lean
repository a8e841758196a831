import Verif.Lemmas.PythonPieces
import Verif.Lemmas.Template
import Verif.Spec.Arguments

/-! The check of C78. -/

namespace Verif.Template
open Verif
open Verif.Spec
open Verif.Spec.Python
open Verif.Matcher (Cfg)

def fuel : Nat := 400

/-- No blank at the beginning. -/
def tight : Val → Bool
  | .code (c :: _) :: _ => !(kind c == .blank || kind c == .line)
  | .code [] :: _ => false
  | [] => false
  | _ => true

def whole (w : What) (as : List ATok) : Bool :=
  match Python.parse fuel w (ajoin 0 as) with
  | some [] => true
  | _ => false

/-- The value is an expression. -/
def exprOk (sp : Special) : Val → Bool
  | [.user _] => true
  | v => tight v && match alex sp .start none (v.map .piece) with
    | some as => whole (.e 0) as
    | none => false

/-- The pieces of a template. -/
def shape (sp : Special) (api : Val) (a : A) : List Q → Option (List AP)
  | [] => some []
  | q :: qs =>
    match q with
    | .kws ex =>
      if a.ents.all fun e => ex.contains e.key || isName e.key && exprOk sp e.val then (shape sp api a qs).map (.kws :: ·)
      else none
    | q => match q.val api a with
      | some v => (shape sp api a qs).map (v.map .piece ++ ·)
      | none => none

def codeFin (sp : Special) (api : Val) (a : A) (qs : List Q) : Bool :=
  match shape sp api a qs with
  | none => false
  | some ps =>
    match alex sp (.nl 0) none ps with
    | none => false
    | some as => whole .code as

/-! ## Soundness -/

/-- The texts of the pieces can be used. -/
def Ok (c : Call) (sp : Special) (v : Val) : Prop := ∀ p ∈ v, Fits sp (.piece p) (p.text c.args c.recv c.fresh)

theorem Ok.append {c : Call} {sp : Special} {v w : Val} (h : Ok c sp (v ++ w)) : Ok c sp v ∧ Ok c sp w :=
  ⟨fun p hp => h p (List.mem_append_left _ hp), fun p hp => h p (List.mem_append_right _ hp)⟩

def pairs (c : Call) (v : Val) : List (AP × Str) := v.map fun p => (.piece p, p.text c.args c.recv c.fresh)

theorem pairs_fst (c : Call) (v : Val) : (pairs c v).map Prod.fst = v.map .piece := by
  simp [pairs, Function.comp_def]

theorem pairs_snd (c : Call) (v : Val) : (pairs c v).flatMap Prod.snd = c.text v := by
  simp [pairs, Call.text, Spec.print, List.flatMap_map]

theorem pairs_fits {c : Call} {sp : Special} {v : Val} (h : Ok c sp v) : ∀ x ∈ pairs c v, Fits sp x.1 x.2 := by
  intro x hx
  obtain ⟨p, hp, rfl⟩ := List.mem_map.1 hx
  exact h p hp

theorem whole_sound {w : What} {as : List ATok} (h : whole w as = true) : Post w (ajoin 0 as) := by
  unfold whole at h
  split at h
  · next hp =>
    obtain ⟨pre, h1, h2⟩ := parse_sound _ _ _ _ hp
    rw [List.append_nil] at h1
    rw [h1]; exact h2
  · simp at h

theorem text_cons (c : Call) (p : Piece) (v : Val) : c.text (p :: v) = p.text c.args c.recv c.fresh ++ c.text v := by
  simp [Call.text, Spec.print]

theorem text_append (c : Call) (v w : Val) : c.text (v ++ w) = c.text v ++ c.text w := by
  simp [Call.text, Spec.print]

theorem first_ok {n : Nat} {t u : Str} (h : Expr n t) {c : Char} {v : Str} (e : t ++ u = c :: v) :
    kind c ≠ .blank ∧ kind c ≠ .line := by
  cases t with
  | nil => exact absurd rfl h.ne
  | cons d t => exact h.1 c t (by simp only [List.cons_append, List.cons.injEq] at e; rw [e.1])

theorem _root_.Verif.Spec.Python.Fits.user {sp : Special} {k t : Str} (h : Fits sp (.piece (.user k)) t) : Expr 14 t := by
  have hs : inString sp (.user k) = false := by cases sp <;> rfl
  simp only [Fits, hs, Bool.false_eq_true, if_false] at h
  split at h
  · exact h.expr
  · exact h

theorem _root_.Verif.Spec.Python.Fits.recv {sp : Special} {t : Str} (h : Fits sp (.piece .recv) t) : Expr 14 t := by
  have hs : inString sp .recv = false := by cases sp <;> rfl
  have ht : isTarget sp .recv = false := by cases sp <;> rfl
  simpa only [Fits, hs, ht, Bool.false_eq_true, if_false, level] using h

theorem _root_.Verif.Spec.Python.Fits.edited {sp : Special} {k t : Str} {e : Edit} (h : Fits sp (.piece (.edited k e)) t)
    (hs : ¬inString sp (.edited k e) = true) : Expr 13 t := by
  have ht : isTarget sp (.edited k e) = false := by cases sp <;> rfl
  simpa only [Fits, if_neg hs, ht, Bool.false_eq_true, if_false, level] using h

theorem exprOk_sound {c : Call} {sp : Special} {v : Val} (h : exprOk sp v = true) (hv : Ok c sp v) : Expr 0 (c.text v) := by
  unfold exprOk at h
  split at h
  · next k =>
    have : Expr 14 (c.text [.user k]) := by
      have := (hv (.user k) (by simp)).user
      simpa [Call.text, Spec.print] using this
    obtain ⟨h1, ts, h2, h3⟩ := this
    exact ⟨h1, ts, h2, h3.weaken (by omega)⟩
  · simp only [Bool.and_eq_true] at h
    obtain ⟨ht, h⟩ := h
    split at h
    · next as ha =>
      rw [← pairs_fst c] at ha
      obtain ⟨⟨ts, hl, hr⟩, -⟩ := alex_sound (pairs_fits hv) (by simp) ha
      rw [pairs_snd] at hl
      refine ⟨?_, ts, hl, whole_sound h _ (hr.join 0)⟩
      intro d u e
      unfold tight at ht
      split at ht
      · next b _ w =>
        rw [text_cons] at e
        simp only [Piece.text, List.cons_append, List.cons.injEq] at e
        simp only [Bool.not_eq_true', Bool.or_eq_false_iff, beq_eq_false_iff_ne] at ht
        rw [← e.1]; exact ht
      · simp at ht
      · simp at ht
      · next h1 h2 h3 =>
        cases v with
        | nil => simp at h3
        | cons p w =>
          rw [text_cons] at e
          have hp := hv p (List.mem_cons_self ..)
          cases p with
          | code s => cases s with
            | nil => exact absurd rfl (h2 w)
            | cons b s => exact absurd rfl (h1 b s w)
          | name s =>
            have hs : isName s = true := by
              simp only [pairs, List.map_cons, alex, ready, Bool.true_and] at ha
              split at ha
              · next hs _ => exact hs
              · simp at ha
            exact first_ok (Name.expr (hp (isName_sound hs))) e
          | user k => exact first_ok hp.user e
          | recv => exact first_ok hp.recv e
          | edited k x =>
            by_cases hq : inString sp (.edited k x) = true
            · exfalso
              simp [pairs, alex, hq] at ha
            · exact first_ok (hp.edited hq) e
    · simp at h

theorem text_kws (c : Call) : ∀ d : Dict Str Val, c.text (kwsVal d) = kwText (d.map fun kv => (kv.1, c.text kv.2))
  | [] => rfl
  | [(k, v)] => by simp [kwsVal, kwText, text_cons, Piece.text]
  | (k, v) :: kv :: d => by
    rw [kwsVal, text_cons, text_append, text_cons, text_kws c (kv :: d)]
    · simp [kwText, Piece.text]
    · simp

theorem Ok.kws {c : Call} {sp : Special} : ∀ {d : Dict Str Val}, Ok c sp (kwsVal d) → ∀ kv ∈ d, Ok c sp kv.2
  | [], _ => by simp
  | [(k, v)], h => by
    intro kv hkv
    simp only [List.mem_singleton] at hkv
    subst hkv
    exact fun p hp => h p (List.mem_cons_of_mem _ hp)
  | (k, v) :: x :: d, h => by
    have h : Ok c sp (.code (k ++ py"=") :: (v ++ .code py", " :: kwsVal (x :: d))) := h
    intro kv hkv
    rcases List.mem_cons.1 hkv with rfl | hkv
    · exact fun p hp => h p (by simp [hp])
    · exact Ok.kws (d := x :: d) (fun p hp => h p (by simp [hp])) kv hkv

theorem shape_sound {c : Call} {sp : Special} {a : A} {s : St} (hrel : Rel c a s) {qs : List Q} {ps : List AP}
    (h : shape sp c.api a qs = some ps) {v : Val} (hv : evalAll c s qs = some v) (hok : Ok c sp v) :
    ∃ xs : List (AP × Str), xs.map Prod.fst = ps ∧ xs.flatMap Prod.snd = c.text v ∧ ∀ x ∈ xs, Fits sp x.1 x.2 := by
  induction qs generalizing ps v with
  | nil =>
    simp only [shape, Option.some.injEq] at h
    simp only [evalAll, Option.some.injEq] at hv
    subst h; subst hv
    exact ⟨[], rfl, rfl, by simp⟩
  | cons q qs ih =>
    simp only [evalAll] at hv
    split at hv
    · next v' w h1 h2 =>
      simp only [Option.some.injEq] at hv
      subst hv
      obtain ⟨ho1, ho2⟩ := hok.append
      by_cases hq : ∃ ex, q = .kws ex
      · obtain ⟨ex, rfl⟩ := hq
        simp only [shape] at h
        split at h
        · next hall =>
          simp only [Option.map_eq_some_iff] at h
          obtain ⟨ps', hps, rfl⟩ := h
          obtain ⟨xs, hx1, hx2, hx3⟩ := ih hps h2 ho2
          simp only [Q.eval, Option.some.injEq] at h1
          subst h1
          refine ⟨(.kws, c.text (kwsVal (s.kw.filter fun kv => !ex.contains kv.1))) :: xs, by simp [hx1],
            by simp [text_append, hx2], fun x hx => ?_⟩
          rcases List.mem_cons.1 hx with rfl | hx
          · show Kws _
            rw [text_kws]
            refine Kws.of fun kv hkv => ?_
            obtain ⟨⟨k, w⟩, hm, rfl⟩ := List.mem_map.1 hkv
            have hval := Ok.kws ho1 _ hm
            obtain ⟨hm, hex⟩ := List.mem_filter.1 hm
            obtain ⟨e, he, hke⟩ := List.mem_map.1 (hrel.perm.mem_iff.1 hm)
            simp only [Prod.mk.injEq] at hke
            obtain ⟨rfl, rfl⟩ := hke
            have := List.all_eq_true.1 hall e (List.mem_filter.1 he).1
            simp only [Bool.or_eq_true, Bool.and_eq_true] at this
            have hthis := this.resolve_left (by simpa using hex)
            exact ⟨isName_sound hthis.1, exprOk_sound hthis.2 hval⟩
          · exact hx3 x hx
        · simp at h
      · have hsh : ∃ w', q.val c.api a = some w' ∧ (shape sp c.api a qs).map (w'.map .piece ++ ·) = some ps := by
          cases q <;> first | exact absurd ⟨_, rfl⟩ hq | (
            simp only [shape] at h
            split at h
            · next w' hw => exact ⟨w', hw, h⟩
            · simp at h)
        obtain ⟨w', hw', h⟩ := hsh
        have := val_eval hrel hw'
        rw [h1] at this
        simp only [Option.some.injEq] at this
        subst this
        simp only [Option.map_eq_some_iff] at h
        obtain ⟨ps', hps, rfl⟩ := h
        obtain ⟨xs, hx1, hx2, hx3⟩ := ih hps h2 ho2
        refine ⟨pairs c v' ++ xs, by simp [pairs_fst, hx1], by simp [pairs_snd, text_append, hx2], fun x hx => ?_⟩
        rcases List.mem_append.1 hx with hx | hx
        · exact pairs_fits ho1 x hx
        · exact hx3 x hx
    · simp at hv

theorem codeFin_sound {c : Call} {sp : Special} {a : A} {s : St} (hrel : Rel c a s) {qs : List Q}
    (h : codeFin sp c.api a qs = true) {v : Val} (hv : evalAll c s qs = some v) (hok : Ok c sp v) : Code (c.text v) := by
  unfold codeFin at h
  split at h
  · simp at h
  · next ps hps =>
    obtain ⟨xs, rfl, hx2, hx3⟩ := shape_sound hrel hps hv hok
    split at h
    · simp at h
    · next as ha =>
      obtain ⟨⟨ts, hl, hr⟩, -⟩ := alex_sound hx3 (by simp) ha
      rw [hx2] at hl
      exact ⟨ts, hl, whole_sound h _ (hr.join 0)⟩

/-! ## Where the pieces come from -/

def Q.noEdit : Q → Bool
  | .edit _ _ => false
  | _ => true

/-- No text is edited. -/
def K.noEdit : K → Bool
  | .emit qs => qs.all Q.noEdit
  | .set _ qs next | .front _ qs next | .save _ qs next => qs.all Q.noEdit && next.noEdit
  | .drop _ next | .change _ _ next => next.noEdit
  | .has _ a b | .ask _ _ a b | .empty a b => a.noEdit && b.noEdit
  | .left | .fail => true

/-- All the pieces in the state have a property. -/
def St.All (P : Piece → Prop) (s : St) : Prop := (∀ kv ∈ s.kw, ∀ p ∈ kv.2, P p) ∧ ∀ kv ∈ s.loc, ∀ p ∈ kv.2, P p

/-- A property of the pieces that a matcher adds. -/
structure Adds (P : Piece → Prop) (c : Call) : Prop where
  code : ∀ s, P (.code s)
  recv : P .recv
  name : ∀ s, P (.name s)
  api : ∀ p ∈ c.api, P p

theorem get_mem {β : Type} {d : Dict Str β} {k : Str} {v : β} (h : d.get? k = some v) : (k, v) ∈ d := by
  induction d with
  | nil => simp [Dict.get?] at h
  | cons kv d ih =>
    simp only [Dict.get?] at h
    split at h
    · next e => simp only [Option.some.injEq] at h; subst h; subst e; simp
    · exact List.mem_cons_of_mem _ (ih h)

theorem eval_all {P : Piece → Prop} {c : Call} (ha : Adds P c) {s : St} (hs : s.All P) {q : Q}
    (he : q.noEdit = true ∨ ∀ k e, P (.user k) → P (.edited k e)) {v : Val} (h : q.eval c s = some v) : ∀ p ∈ v, P p := by
  have hget : ∀ {k : Str} {w : Val}, s.kw.get? k = some w → ∀ p ∈ w, P p := fun h => hs.1 _ (get_mem h)
  have hloc : ∀ {k : Str} {w : Val}, s.loc.get? k = some w → ∀ p ∈ w, P p := fun h => hs.2 _ (get_mem h)
  cases q with
  | lit t => simp only [Q.eval, Option.some.injEq] at h; subst h; intro p hp; simp at hp; subst hp; exact ha.code t
  | arg k => exact hget h
  | argOr k d =>
    simp only [Q.eval, Option.some.injEq] at h
    subst h
    cases hg : s.kw.get? k with
    | none => intro p hp; simp at hp; subst hp; exact ha.code d
    | some w => simpa [hg] using hget hg
  | argOrRecv k =>
    simp only [Q.eval, Option.some.injEq] at h
    subst h
    cases hg : s.kw.get? k with
    | none => intro p hp; simp at hp; subst hp; exact ha.recv
    | some w => simpa [hg] using hget hg
  | var x => exact hloc h
  | edit e x =>
    have he := he.resolve_left (by simp [Q.noEdit])
    simp only [Q.eval, Option.bind_eq_some_iff] at h
    obtain ⟨w, hw, h⟩ := h
    have := hloc hw
    unfold editVal at h
    split at h
    · next k =>
      simp only [Option.some.injEq] at h
      subst h
      intro p hp; simp at hp; subst hp
      exact he k e (this _ (by simp))
    · simp only [Option.some.injEq] at h
      subst h
      intro p hp; simp at hp; subst hp; exact ha.code _
    · simp at h
  | recv => simp only [Q.eval, Option.some.injEq] at h; subst h; intro p hp; simp at hp; subst hp; exact ha.recv
  | api => simp only [Q.eval, Option.some.injEq] at h; subst h; exact ha.api
  | fresh t => simp only [Q.eval, Option.some.injEq] at h; subst h; intro p hp; simp at hp; subst hp; exact ha.name t
  | kws ex =>
    simp only [Q.eval, Option.some.injEq] at h
    subst h
    have : ∀ d : Dict Str Val, (∀ kv ∈ d, ∀ p ∈ kv.2, P p) → ∀ p ∈ kwsVal d, P p := by
      intro d
      induction d with
      | nil => simp [kwsVal]
      | cons kv d ih =>
        intro h
        have ih := ih fun x hx => h x (List.mem_cons_of_mem _ hx)
        have h0 := h kv (List.mem_cons_self ..)
        obtain ⟨k, w⟩ := kv
        cases d with
        | nil =>
          intro p hp
          simp only [kwsVal, List.mem_cons] at hp
          rcases hp with rfl | hp
          · exact ha.code _
          · exact h0 p hp
        | cons x d =>
          intro p hp
          simp only [kwsVal, List.mem_cons, List.mem_append] at hp
          rcases hp with rfl | hp | rfl | hp
          · exact ha.code _
          · exact h0 p hp
          · exact ha.code _
          · exact ih p hp
    exact this _ fun kv hkv => hs.1 kv (List.mem_filter.1 hkv).1

theorem evalAll_all {P : Piece → Prop} {c : Call} (ha : Adds P c) {s : St} (hs : s.All P) {qs : List Q}
    (he : qs.all Q.noEdit = true ∨ ∀ k e, P (.user k) → P (.edited k e)) {v : Val} (h : evalAll c s qs = some v) :
    ∀ p ∈ v, P p := by
  induction qs generalizing v with
  | nil => simp only [evalAll, Option.some.injEq] at h; subst h; simp
  | cons q qs ih =>
    simp only [evalAll] at h
    split at h
    · next v' w h1 h2 =>
      simp only [Option.some.injEq] at h
      subst h
      simp only [List.all_cons, Bool.and_eq_true] at he
      intro p hp
      rcases List.mem_append.1 hp with hp | hp
      · exact eval_all ha hs (he.imp_left (·.1)) h1 p hp
      · exact ih (he.imp_left (·.2)) h2 p hp
    · simp at h

theorem set_mem {β : Type} {d : Dict Str β} {k : Str} {v : β} {x : Str × β} (h : x ∈ d.set k v) : x = (k, v) ∨ x ∈ d := by
  induction d with
  | nil => simp [Dict.set] at h; exact .inl h
  | cons kv d ih =>
    simp only [Dict.set] at h
    split at h
    · next e =>
      rcases List.mem_cons.1 h with h | h
      · rw [← e]; exact .inl h
      · exact .inr (List.mem_cons_of_mem _ h)
    · rcases List.mem_cons.1 h with h | h
      · exact .inr (h ▸ List.mem_cons_self ..)
      · exact (ih h).imp_right (List.mem_cons_of_mem _)

theorem erase_mem {β : Type} {d : Dict Str β} {k : Str} {x : Str × β} (h : x ∈ d.erase k) : x ∈ d := by
  induction d with
  | nil => simp [Dict.erase] at h
  | cons kv d ih =>
    simp only [Dict.erase] at h
    split at h
    · exact List.mem_cons_of_mem _ h
    · rcases List.mem_cons.1 h with h | h
      · exact h ▸ List.mem_cons_self ..
      · exact List.mem_cons_of_mem _ (ih h)

theorem update_mem {β : Type} {d e : Dict Str β} {x : Str × β} (h : x ∈ d.update e) : x ∈ d ∨ x ∈ e := by
  unfold Dict.update at h
  induction e generalizing d with
  | nil => exact .inl h
  | cons kv e ih =>
    rcases ih h with h | h
    · rcases set_mem h with h | h
      · exact .inr (h ▸ List.mem_cons_self ..)
      · exact .inl h
    · exact .inr (List.mem_cons_of_mem _ h)

theorem foldl_set_mem {β : Type} {ts : List Str} {v : β} {d : Dict Str β} {x : Str × β}
    (h : x ∈ ts.foldl (fun d t => d.set t v) d) : x ∈ d ∨ x.2 = v := by
  induction ts generalizing d with
  | nil => exact .inl h
  | cons t ts ih =>
    rcases ih h with h | h
    · rcases set_mem h with h | h
      · exact .inr (by rw [h])
      · exact .inl h
    · exact .inr h

theorem change_mem {tbl : Dict Str Matcher.Change} {unuse : List Str} {d acc : Dict Str Val} {x : Str × Val}
    (h : x ∈ d.foldl (changeStep tbl unuse) acc) : x ∈ acc ∨ ∃ kv ∈ d, x.2 = kv.2 := by
  induction d generalizing acc with
  | nil => exact .inl h
  | cons kv d ih =>
    rcases ih h with h | ⟨y, hy, e⟩
    · unfold changeStep at h
      split at h
      · rcases foldl_set_mem h with h | h
        · exact .inl h
        · exact .inr ⟨kv, List.mem_cons_self .., h⟩
      · have hset : x ∈ acc.set kv.1 kv.2 := by
          simp only at h
          split at h
          · exact erase_mem h
          · exact h
        rcases set_mem hset with h | h
        · exact .inr ⟨kv, List.mem_cons_self .., by rw [h]⟩
        · exact .inl h
    · exact .inr ⟨y, List.mem_cons_of_mem _ hy, e⟩

/-- The pieces of the code come from the state, or the matcher adds them. -/
theorem run_all {P : Piece → Prop} {c : Call} (ha : Adds P c) (g : K)
    (he : g.noEdit = true ∨ ∀ k e, P (.user k) → P (.edited k e)) {s : St} (hs : s.All P) {ps : Val}
    (h : g.run c s = .code ps) : ∀ p ∈ ps, P p := by
  induction g generalizing s with
  | emit qs =>
    simp only [K.run] at h
    split at h
    · next v hv => simp only [Out.code.injEq] at h; subst h; exact evalAll_all ha hs (by simpa [K.noEdit] using he) hv
    · simp at h
  | set k qs next ih =>
    simp only [K.noEdit, Bool.and_eq_true] at he
    simp only [K.run] at h
    split at h
    · next v hv =>
      refine ih (s := ⟨s.kw.set k v, s.loc⟩) (he.imp_left (·.2)) ⟨fun kv hkv => ?_, hs.2⟩ h
      rcases set_mem hkv with rfl | hkv
      · exact evalAll_all ha hs (he.imp_left (·.1)) hv
      · exact hs.1 kv hkv
    · simp at h
  | front k qs next ih =>
    simp only [K.noEdit, Bool.and_eq_true] at he
    simp only [K.run] at h
    split at h
    · next v hv =>
      refine ih (s := ⟨Dict.update [(k, v)] s.kw, s.loc⟩) (he.imp_left (·.2)) ⟨fun kv hkv => ?_, hs.2⟩ h
      rcases update_mem hkv with hkv | hkv
      · simp only [List.mem_singleton] at hkv; subst hkv
        exact evalAll_all ha hs (he.imp_left (·.1)) hv
      · exact hs.1 kv hkv
    · simp at h
  | drop k next ih => exact ih (s := ⟨s.kw.erase k, s.loc⟩) he ⟨fun kv hkv => hs.1 kv (erase_mem hkv), hs.2⟩ h
  | save y qs next ih =>
    simp only [K.noEdit, Bool.and_eq_true] at he
    simp only [K.run] at h
    split at h
    · next v hv =>
      refine ih (s := ⟨s.kw, s.loc.set y v⟩) (he.imp_left (·.2)) ⟨hs.1, fun kv hkv => ?_⟩ h
      rcases set_mem hkv with rfl | hkv
      · exact evalAll_all ha hs (he.imp_left (·.1)) hv
      · exact hs.2 kv hkv
    · simp at h
  | change tbl unuse next ih =>
    refine ih (s := ⟨changeVals tbl unuse s.kw, s.loc⟩) he ⟨fun kv hkv => ?_, hs.2⟩ h
    rcases change_mem hkv with hkv | ⟨y, hy, e⟩
    · simp at hkv
    · rw [e]; exact hs.1 y hy
  | has k y z ihy ihz =>
    simp only [K.noEdit, Bool.and_eq_true] at he
    simp only [K.run] at h
    split at h
    · exact ihy (he.imp_left (·.1)) hs h
    · exact ihz (he.imp_left (·.2)) hs h
  | ask q t y z ihy ihz =>
    simp only [K.noEdit, Bool.and_eq_true] at he
    simp only [K.run] at h
    split at h
    · split at h
      · exact ihy (he.imp_left (·.1)) hs h
      · exact ihz (he.imp_left (·.2)) hs h
    · simp at h
  | empty y z ihy ihz =>
    simp only [K.noEdit, Bool.and_eq_true] at he
    simp only [K.run] at h
    split at h
    · exact ihy (he.imp_left (·.1)) hs h
    · exact ihz (he.imp_left (·.2)) hs h
  | left => simp [K.run] at h
  | fail => simp [K.run] at h

end Verif.Template
