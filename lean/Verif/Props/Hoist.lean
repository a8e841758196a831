import Verif.Spec.Hoist
import Verif.Model.Names
import Verif.Props.Names

/-!
# C64: helper lines run when the use runs
-/

namespace Verif.Hoist
open Verif

variable {I : Interp} {fresh : Nat → Str}

/-- The value of an expression without assignment expressions. -/
def val (I : Interp) : Expr → Env → Option Int
  | .lit v, _ => some v
  | .var x, env => env x
  | .call f a, env => (val I a env).bind (I.call f)
  | .op f a b, env => (val I a env).bind fun v => (val I b env).bind fun w => I.op f v w
  | .ite c a b, env => (val I c env).bind fun v => if v ≠ 0 then val I a env else val I b env
  | .walrus _ a, env => val I a env
  | .use k a, env => (val I a env).bind fun v => (I.call k v).bind fun w => I.op k v w

theorem eval_val (e : Expr) (h : Strict e) (env : Env) : eval I e env = .of env (val I e env) := by
  induction e with
  | lit v => rfl
  | var x => rfl
  | call f a ih =>
    simp only [eval, val, ih h]
    cases val I a env <;> rfl
  | op f a b iha ihb =>
    simp only [eval, val, iha h.1]
    cases val I a env with
    | none => rfl
    | some v =>
      simp only [Out.of, Out.bind, Option.bind_some, ihb h.2]
      cases val I b env <;> rfl
  | ite c a b ihc iha ihb =>
    simp only [eval, val, ihc h.1]
    cases val I c env with
    | none => rfl
    | some v =>
      simp only [Out.of, Out.bind, Option.bind_some]
      split
      · exact iha h.2.1
      · exact ihb h.2.2.1
  | walrus x a _ => exact h.elim
  | use k a ih =>
    simp only [eval, val, ih h]
    cases val I a env <;> rfl

/-- An expression without API calls stays as it is. -/
theorem conv_none (e : Expr) (h : uses e = 0) (s : List Line × Nat) : conv fresh e s = (e, s) := by
  induction e generalizing s with
  | lit v => rfl
  | var x => rfl
  | call f a ih => simp only [conv, ih h]
  | op f a b iha ihb =>
    simp only [uses, Nat.add_eq_zero_iff] at h
    simp only [conv, iha h.1, ihb h.2]
  | ite c a b ihc iha ihb =>
    simp only [uses, Nat.add_eq_zero_iff] at h
    simp only [conv, ihc h.1.1, iha h.1.2, ihb h.2]
  | walrus x a ih => simp only [conv, ih h]
  | use k a ih => simp [uses] at h

theorem conv_count (e : Expr) (s : List Line × Nat) : (conv fresh e s).2.2 = s.2 + uses e := by
  induction e generalizing s with
  | lit v => rfl
  | var x => rfl
  | call f a ih => simp only [conv, uses, ih]
  | op f a b iha ihb => simp only [conv, uses, iha, ihb]; omega
  | ite c a b ihc iha ihb => simp only [conv, uses, ihc, iha, ihb]; omega
  | walrus x a ih => simp only [conv, uses, ih]
  | use k a ih => simp only [conv, uses, ih]; omega

/-- The lines one after the other. -/
def run (I : Interp) : List Line → Env → Option Env
  | [], env => some env
  | l :: L, env => (val I l.2 env).bind fun v => run I L (env.set l.1 v)

theorem run_append (L M : List Line) (env : Env) : run I (L ++ M) env = (run I L env).bind (run I M) := by
  induction L generalizing env with
  | nil => rfl
  | cons l L ih =>
    simp only [List.cons_append, run]
    cases val I l.2 env with
    | none => rfl
    | some v => simp only [Option.bind_some, ih]

/-- Two states that agree on the variables which are not of helper lines. -/
def Agree (fresh : Nat → Str) (a b : Env) : Prop := ∀ x, (∀ n, fresh n ≠ x) → a x = b x

theorem Agree.set {a b : Env} (h : Agree fresh a b) (x : Str) (v : Int) : Agree fresh (a.set x v) (b.set x v) := by
  intro y hy
  simp only [Env.set]
  split
  · rfl
  · exact h y hy

theorem Agree.trans {a b c : Env} (h : Agree fresh a b) (h' : Agree fresh b c) : Agree fresh a c :=
  fun x hx => (h x hx).trans (h' x hx)

theorem Agree.symm {a b : Env} (h : Agree fresh a b) : Agree fresh b a := fun x hx => (h x hx).symm

theorem Agree.refl (a : Env) : Agree fresh a a := fun _ _ => rfl

theorem Agree.set_fresh {a b : Env} (h : Agree fresh a b) (n : Nat) (v : Int) : Agree fresh a (b.set (fresh n) v) := by
  intro y hy
  simp only [Env.set]
  rw [if_neg (fun e => hy n e.symm)]
  exact h y hy

theorem val_agree (e : Expr) (hv : ∀ n, ¬ e.Has (fresh n)) {a b : Env} (h : Agree fresh a b) : val I e a = val I e b := by
  induction e with
  | lit v => rfl
  | var x => exact h x (fun n e => hv n e)
  | call f a ih => simp only [val, ih hv]
  | op f a b iha ihb =>
    simp only [val, iha (fun n h => hv n (Or.inl h)), ihb (fun n h => hv n (Or.inr h))]
  | ite c a b ihc iha ihb =>
    simp only [val, ihc (fun n h => hv n (Or.inl h)), iha (fun n h => hv n (Or.inr (Or.inl h))),
      ihb (fun n h => hv n (Or.inr (Or.inr h)))]
  | walrus x a ih => simp only [val, ih (fun n h => hv n (Or.inr h))]
  | use k a ih => simp only [val, ih hv]

/-- What the converted expression does: `M` are its lines, run after the state `env1` of the earlier lines. -/
structure Ok (I : Interp) (fresh : Nat → Str) (e e' : Expr) (M : List Line) (n n' : Nat) (env env1 : Env) : Prop where
  good : ∀ v, val I e env = some v → ∃ env2, run I M env1 = some env2 ∧
    ∀ env3, Agree fresh env env3 → (∀ j, n ≤ j → j < n' → env3 (fresh j) = env2 (fresh j)) → val I e' env3 = some v
  bad : val I e env = none → run I M env1 = none ∨ ∃ env2, run I M env1 = some env2 ∧
    ∀ env3, Agree fresh env env3 → (∀ j, n ≤ j → j < n' → env3 (fresh j) = env2 (fresh j)) → val I e' env3 = none
  frame : ∀ env2, run I M env1 = some env2 → Agree fresh env env1 → Agree fresh env env2 ∧
    ∀ j, j < n → (∀ i, n ≤ i → i < n' → fresh i ≠ fresh j) → env2 (fresh j) = env1 (fresh j)

theorem conv_ok (e : Expr) (hs : Strict e) (hv : ∀ n, ¬ e.Has (fresh n)) (env : Env) (n0 : Nat) (L : List Line) (n : Nat)
    (hL : ∀ l ∈ L, ∃ j, n0 ≤ j ∧ j < n ∧ l.1 = fresh j) (hn : n0 ≤ n)
    (hinj : ∀ i j, n0 ≤ i → i < n + uses e → n0 ≤ j → j < n + uses e → fresh i = fresh j → i = j) :
    ∃ M, (conv fresh e (L, n)).2.1 = L ++ M ∧
      (∀ l ∈ M, ∃ j, n ≤ j ∧ j < n + uses e ∧ l.1 = fresh j) ∧
      ∀ env1, Agree fresh env env1 → Ok I fresh e (conv fresh e (L, n)).1 M n (n + uses e) env env1 := by
  induction e generalizing L n with
  | lit v =>
    refine ⟨[], by simp [conv], by simp, fun env1 h1 => ⟨?_, ?_, ?_⟩⟩
    · intro w hw; exact ⟨env1, rfl, fun env3 _ _ => hw⟩
    · intro h; simp [val] at h
    · intro env2 h2 h; simp only [run, Option.some.injEq] at h2; subst h2; exact ⟨h, fun _ _ _ => rfl⟩
  | var x =>
    refine ⟨[], by simp [conv], by simp, fun env1 h1 => ⟨?_, ?_, ?_⟩⟩
    · intro w hw
      refine ⟨env1, rfl, fun env3 h3 _ => ?_⟩
      rw [← hw]; exact (val_agree (.var x) hv h3).symm
    · intro hw
      refine Or.inr ⟨env1, rfl, fun env3 h3 _ => ?_⟩
      rw [← hw]; exact (val_agree (.var x) hv h3).symm
    · intro env2 h2 h; simp only [run, Option.some.injEq] at h2; subst h2; exact ⟨h, fun _ _ _ => rfl⟩
  | call f a ih =>
    obtain ⟨M, h1, h2, h3⟩ := ih hs hv L n hL hn hinj
    refine ⟨M, h1, h2, fun env1 ha => ?_⟩
    have o := h3 env1 ha
    refine ⟨?_, ?_, o.frame⟩
    · intro w hw
      simp only [val] at hw
      cases hva : val I a env with
      | none => rw [hva] at hw; simp at hw
      | some v =>
        rw [hva] at hw
        obtain ⟨env2, r, q⟩ := o.good v hva
        refine ⟨env2, r, fun env3 g3 j3 => ?_⟩
        simp only [conv, val, q env3 g3 j3]
        exact hw
    · intro hw
      simp only [val] at hw
      cases hva : val I a env with
      | none =>
        rcases o.bad hva with r | ⟨env2, r, q⟩
        · exact Or.inl r
        · refine Or.inr ⟨env2, r, fun env3 g3 j3 => ?_⟩
          simp only [conv, val, q env3 g3 j3, Option.bind_none]
      | some v =>
        rw [hva] at hw
        obtain ⟨env2, r, q⟩ := o.good v hva
        refine Or.inr ⟨env2, r, fun env3 g3 j3 => ?_⟩
        simp only [conv, val, q env3 g3 j3]
        exact hw
  | op f a b iha ihb =>
    simp only [uses] at hinj ⊢
    obtain ⟨M, h1, h2, h3⟩ := iha hs.1 (fun n h => hv n (Or.inl h)) L n hL hn
      (fun i j a1 a2 a3 a4 => hinj i j a1 (by omega) a3 (by omega))
    have hc := conv_count (fresh := fresh) a (L, n)
    have hs1 : (conv fresh a (L, n)).2 = (L ++ M, n + uses a) := Prod.ext h1 hc
    obtain ⟨N, k1, k2, k3⟩ := ihb hs.2 (fun n h => hv n (Or.inr h)) (L ++ M) (n + uses a) (by
        intro l hl
        rcases List.mem_append.1 hl with h | h
        · obtain ⟨j, j1, j2, j3⟩ := hL l h; exact ⟨j, j1, by omega, j3⟩
        · obtain ⟨j, j1, j2, j3⟩ := h2 l h; exact ⟨j, by omega, j2, j3⟩) (by omega)
      (fun i j a1 a2 a3 a4 => hinj i j a1 (by omega) a3 (by omega))
    refine ⟨M ++ N, ?_, ?_, ?_⟩
    · simp only [conv, hs1]; rw [k1, List.append_assoc]
    · intro l hl
      rcases List.mem_append.1 hl with h | h
      · obtain ⟨j, j1, j2, j3⟩ := h2 l h; exact ⟨j, j1, by omega, j3⟩
      · obtain ⟨j, j1, j2, j3⟩ := k2 l h; exact ⟨j, by omega, by omega, j3⟩
    · intro env1 hag
      have o := h3 env1 hag
      have he : (conv fresh (.op f a b) (L, n)).1
          = .op f (conv fresh a (L, n)).1 (conv fresh b (L ++ M, n + uses a)).1 := by
        simp only [conv, hs1]
      rw [he]
      -- what the second operand gives in the state after the first
      have frameN : ∀ e1 e2, run I M env1 = some e1 → run I N e1 = some e2 →
          Agree fresh env e2 ∧ (∀ j, n ≤ j → j < n + uses a → e2 (fresh j) = e1 (fresh j)) := by
        intro e1 e2 r1 r2
        have g1 := (o.frame e1 r1 hag).1
        have p := (k3 e1 g1).frame e2 r2 g1
        refine ⟨p.1, fun j j1 j2 => p.2 j j2 ?_⟩
        intro i i1 i2 e
        have := hinj i j (by omega) (by omega) (by omega) (by omega) e
        omega
      refine ⟨?_, ?_, ?_⟩
      · intro w hw
        simp only [val] at hw
        cases hva : val I a env with
        | none => rw [hva] at hw; simp at hw
        | some v =>
          cases hvb : val I b env with
          | none => rw [hva, hvb] at hw; simp at hw
          | some u =>
            rw [hva, hvb] at hw
            obtain ⟨e1, r1, q1⟩ := o.good v hva
            have g1 := (o.frame e1 r1 hag).1
            obtain ⟨e2, r2, q2⟩ := (k3 e1 g1).good u hvb
            refine ⟨e2, by rw [run_append, r1]; exact r2, fun env3 g3 j3 => ?_⟩
            have f2 := (frameN e1 e2 r1 r2).2
            simp only [val, q1 env3 g3 (fun j j1 j2 => by rw [j3 j j1 (by omega), f2 j j1 j2]),
              q2 env3 g3 (fun j j1 j2 => j3 j (by omega) (by omega))]
            exact hw
      · intro hw
        simp only [val] at hw
        cases hva : val I a env with
        | none =>
          rcases o.bad hva with r | ⟨e1, r1, q1⟩
          · left; rw [run_append, r]; rfl
          · cases hN : run I N e1 with
            | none => left; rw [run_append, r1]; exact hN
            | some e2 =>
              right
              refine ⟨e2, by rw [run_append, r1]; exact hN, fun env3 g3 j3 => ?_⟩
              have f2 := (frameN e1 e2 r1 hN).2
              simp only [val, q1 env3 g3 (fun j j1 j2 => by rw [j3 j j1 (by omega), f2 j j1 j2]), Option.bind_none]
        | some v =>
          rw [hva] at hw
          obtain ⟨e1, r1, q1⟩ := o.good v hva
          have g1 := (o.frame e1 r1 hag).1
          cases hvb : val I b env with
          | none =>
            rcases (k3 e1 g1).bad hvb with r | ⟨e2, r2, q2⟩
            · left; rw [run_append, r1]; exact r
            · right
              refine ⟨e2, by rw [run_append, r1]; exact r2, fun env3 g3 j3 => ?_⟩
              have f2 := (frameN e1 e2 r1 r2).2
              simp only [val, q1 env3 g3 (fun j j1 j2 => by rw [j3 j j1 (by omega), f2 j j1 j2]),
                q2 env3 g3 (fun j j1 j2 => j3 j (by omega) (by omega)), Option.bind_some, Option.bind_none]
          | some u =>
            rw [hvb] at hw
            obtain ⟨e2, r2, q2⟩ := (k3 e1 g1).good u hvb
            right
            refine ⟨e2, by rw [run_append, r1]; exact r2, fun env3 g3 j3 => ?_⟩
            have f2 := (frameN e1 e2 r1 r2).2
            simp only [val, q1 env3 g3 (fun j j1 j2 => by rw [j3 j j1 (by omega), f2 j j1 j2]),
              q2 env3 g3 (fun j j1 j2 => j3 j (by omega) (by omega))]
            exact hw
      · intro e2 r hag'
        rw [run_append] at r
        cases r1 : run I M env1 with
        | none => rw [r1] at r; simp at r
        | some e1 =>
          rw [r1] at r
          have r2 : run I N e1 = some e2 := r
          have p1 := o.frame e1 r1 hag'
          have p2 := (k3 e1 p1.1).frame e2 r2 p1.1
          refine ⟨p2.1, fun j j1 hj => ?_⟩
          rw [p2.2 j (by omega) (fun i i1 i2 => hj i (by omega) (by omega)),
            p1.2 j j1 (fun i i1 i2 => hj i i1 (by omega))]
  | ite c a b ihc iha ihb =>
    obtain ⟨sc, sa, sb, ua, ub⟩ := hs
    simp only [uses, ua, ub, Nat.add_zero] at hinj ⊢
    obtain ⟨M, h1, h2, h3⟩ := ihc sc (fun n h => hv n (Or.inl h)) L n hL hn hinj
    have he : conv fresh (.ite c a b) (L, n) = (.ite (conv fresh c (L, n)).1 a b, (conv fresh c (L, n)).2) := by
      simp only [conv, conv_none a ua, conv_none b ub]
    rw [he]
    refine ⟨M, h1, h2, fun env1 ha => ?_⟩
    have o := h3 env1 ha
    have hva : ∀ env3, Agree fresh env env3 → val I a env3 = val I a env := fun env3 g =>
      (val_agree a (fun n h => hv n (Or.inr (Or.inl h))) g).symm
    have hvb : ∀ env3, Agree fresh env env3 → val I b env3 = val I b env := fun env3 g =>
      (val_agree b (fun n h => hv n (Or.inr (Or.inr h))) g).symm
    refine ⟨?_, ?_, o.frame⟩
    · intro w hw
      simp only [val] at hw
      cases hc : val I c env with
      | none => rw [hc] at hw; simp at hw
      | some v =>
        rw [hc] at hw
        obtain ⟨env2, r, q⟩ := o.good v hc
        refine ⟨env2, r, fun env3 g3 j3 => ?_⟩
        simp only [val, q env3 g3 j3, hva env3 g3, hvb env3 g3]
        exact hw
    · intro hw
      simp only [val] at hw
      cases hc : val I c env with
      | none =>
        rcases o.bad hc with r | ⟨env2, r, q⟩
        · exact Or.inl r
        · refine Or.inr ⟨env2, r, fun env3 g3 j3 => ?_⟩
          simp only [val, q env3 g3 j3, Option.bind_none]
      | some v =>
        rw [hc] at hw
        obtain ⟨env2, r, q⟩ := o.good v hc
        refine Or.inr ⟨env2, r, fun env3 g3 j3 => ?_⟩
        simp only [val, q env3 g3 j3, hva env3 g3, hvb env3 g3]
        exact hw
  | walrus x a ih => exact hs.elim
  | use k a ih =>
    simp only [uses] at hinj ⊢
    obtain ⟨M, h1, h2, h3⟩ := ih hs hv L n hL hn
      (fun i j a1 a2 a3 a4 => hinj i j a1 (by omega) a3 (by omega))
    have hc := conv_count (fresh := fresh) a (L, n)
    have hs1 : (conv fresh a (L, n)).2 = (L ++ M, n + uses a) := Prod.ext h1 hc
    generalize ha' : (conv fresh a (L, n)).1 = a' at h3
    have he : conv fresh (.use k a) (L, n) = (.op k a' (.var (fresh (n + uses a))),
        record (L ++ M) (fresh (n + uses a), .call k a'), n + uses a + 1) := by
      simp only [conv, hs1, ha']
    have hnew : (fresh (n + uses a), Expr.call k a') ∉ L ++ M := by
      intro hmem
      rcases List.mem_append.1 hmem with h | h
      · obtain ⟨j, j1, j2, j3⟩ := hL _ h
        have := hinj (n + uses a) j (by omega) (by omega) j1 (by omega) j3
        omega
      · obtain ⟨j, j1, j2, j3⟩ := h2 _ h
        have := hinj (n + uses a) j (by omega) (by omega) (by omega) (by omega) j3
        omega
    rw [he]
    refine ⟨M ++ [(fresh (n + uses a), .call k a')], ?_, ?_, ?_⟩
    · simp only [record, if_neg hnew, List.append_assoc]
    · intro l hl
      rcases List.mem_append.1 hl with h | h
      · obtain ⟨j, j1, j2, j3⟩ := h2 l h; exact ⟨j, j1, by omega, j3⟩
      · simp only [List.mem_singleton] at h; subst h; exact ⟨n + uses a, by omega, by omega, rfl⟩
    · intro env1 hag
      have o := h3 env1 hag
      have hnot : ∀ j, n ≤ j → j < n + uses a → fresh j ≠ fresh (n + uses a) := by
        intro j j1 j2 e
        have := hinj j (n + uses a) (by omega) (by omega) (by omega) (by omega) e
        omega
      have runLast : ∀ e1 : Env, run I M env1 = some e1 →
          run I (M ++ [(fresh (n + uses a), .call k a')]) env1
            = ((val I a' e1).bind (I.call k)).map (fun w => e1.set (fresh (n + uses a)) w) := by
        intro e1 r1
        rw [run_append, r1]
        simp only [Option.bind_some, run, val]
        cases (val I a' e1).bind (I.call k) <;> rfl
      have self : ∀ e1, run I M env1 = some e1 → Agree fresh env e1 := fun e1 r1 => (o.frame e1 r1 hag).1
      refine ⟨?_, ?_, ?_⟩
      · intro w hw
        simp only [val] at hw
        cases hva : val I a env with
        | none => rw [hva] at hw; simp at hw
        | some v =>
          rw [hva] at hw
          obtain ⟨e1, r1, q1⟩ := o.good v hva
          simp only [Option.bind_some] at hw
          cases hcv : I.call k v with
          | none => rw [hcv] at hw; simp at hw
          | some u =>
            rw [hcv] at hw
            refine ⟨e1.set (fresh (n + uses a)) u, ?_, fun env3 g3 j3 => ?_⟩
            · rw [runLast e1 r1, q1 e1 (self e1 r1) (fun _ _ _ => rfl)]
              simp only [Option.bind_some, hcv, Option.map_some]
            · have q := q1 env3 g3 (fun j j1 j2 => by
                rw [j3 j j1 (by omega)]; simp only [Env.set, if_neg (hnot j j1 j2)])
              have t := j3 (n + uses a) (by omega) (by omega)
              simp only [Env.set, if_true] at t
              simp only [val, q, t, Option.bind_some]
              exact hw
      · intro hw
        simp only [val] at hw
        cases hva : val I a env with
        | none =>
          rcases o.bad hva with r | ⟨e1, r1, q1⟩
          · left; rw [run_append, r]; rfl
          · left
            rw [runLast e1 r1, q1 e1 (self e1 r1) (fun _ _ _ => rfl)]; rfl
        | some v =>
          rw [hva] at hw
          simp only [Option.bind_some] at hw
          obtain ⟨e1, r1, q1⟩ := o.good v hva
          cases hcv : I.call k v with
          | none =>
            left
            rw [runLast e1 r1, q1 e1 (self e1 r1) (fun _ _ _ => rfl)]
            simp only [Option.bind_some, hcv, Option.map_none]
          | some u =>
            rw [hcv] at hw
            right
            refine ⟨e1.set (fresh (n + uses a)) u, ?_, fun env3 g3 j3 => ?_⟩
            · rw [runLast e1 r1, q1 e1 (self e1 r1) (fun _ _ _ => rfl)]
              simp only [Option.bind_some, hcv, Option.map_some]
            · have q := q1 env3 g3 (fun j j1 j2 => by
                rw [j3 j j1 (by omega)]; simp only [Env.set, if_neg (hnot j j1 j2)])
              have t := j3 (n + uses a) (by omega) (by omega)
              simp only [Env.set, if_true] at t
              simp only [val, q, t, Option.bind_some]
              exact hw
      · intro e2 r hag'
        cases r1 : run I M env1 with
        | none => rw [run_append, r1] at r; simp at r
        | some e1 =>
          rw [runLast e1 r1] at r
          cases hx : (val I a' e1).bind (I.call k) with
          | none => rw [hx] at r; simp at r
          | some u =>
            rw [hx] at r
            simp only [Option.map_some, Option.some.injEq] at r
            subst r
            have p := o.frame e1 r1 hag'
            refine ⟨p.1.set_fresh _ _, fun j j1 hj => ?_⟩
            simp only [Env.set]
            rw [if_neg (fun e => hj (n + uses a) (by omega) (by omega) e.symm)]
            exact p.2 j j1 (fun i i1 i2 => hj i i1 (by omega))

theorem strict_of_conv (e : Expr) (hs : Strict e) (L : List Line) (n : Nat) (hL : ∀ l ∈ L, Strict l.2) :
    Strict (conv fresh e (L, n)).1 ∧ ∀ l ∈ (conv fresh e (L, n)).2.1, Strict l.2 := by
  induction e generalizing L n with
  | lit v => exact ⟨trivial, hL⟩
  | var x => exact ⟨trivial, hL⟩
  | call f a ih => exact ih hs L n hL
  | op f a b iha ihb =>
    have p := iha hs.1 L n hL
    have q := ihb hs.2 (conv fresh a (L, n)).2.1 (conv fresh a (L, n)).2.2 p.2
    exact ⟨⟨p.1, q.1⟩, q.2⟩
  | ite c a b ihc iha ihb =>
    obtain ⟨sc, sa, sb, ua, ub⟩ := hs
    have p := ihc sc L n hL
    have he : conv fresh (.ite c a b) (L, n) = (.ite (conv fresh c (L, n)).1 a b, (conv fresh c (L, n)).2) := by
      simp only [conv, conv_none a ua, conv_none b ub]
    rw [he]
    exact ⟨⟨p.1, sa, sb, ua, ub⟩, p.2⟩
  | walrus x a ih => exact hs.elim
  | use k a ih =>
    have p := ih hs L n hL
    refine ⟨⟨p.1, trivial⟩, ?_⟩
    intro l hl
    simp only [conv, record] at hl
    split at hl
    · exact p.2 l hl
    · rcases List.mem_append.1 hl with h | h
      · exact p.2 l h
      · simp only [List.mem_singleton] at h; subst h; exact p.1

/-- The names of the lines. -/
theorem lines_fresh (e : Expr) (s : List Line × Nat) (hs : ∀ l ∈ s.1, ∃ j, l.1 = fresh j) :
    ∀ l ∈ (conv fresh e s).2.1, ∃ j, l.1 = fresh j := by
  induction e generalizing s with
  | lit v => exact hs
  | var x => exact hs
  | call f a ih => exact ih s hs
  | op f a b iha ihb => exact ihb _ (iha s hs)
  | ite c a b ihc iha ihb => exact ihb _ (iha _ (ihc s hs))
  | walrus x a ih => exact ih s hs
  | use k a ih =>
    intro l hl
    simp only [conv, record] at hl
    split at hl
    · exact ih s hs l hl
    · rcases List.mem_append.1 hl with h | h
      · exact ih s hs l h
      · simp only [List.mem_singleton] at h
        subst h
        exact ⟨_, rfl⟩

theorem exec_before (N : Nat) (L : List Line) (hL : ∀ l ∈ L, Strict l.2) (hf : ∀ l ∈ L, ∃ j, l.1 = fresh j) (s : Stmt) (env : Env) :
    match run I L env with
      | none => ∃ env', exec I N (before L s) env = .raise env' ∧ Agree fresh env env'
      | some env' => exec I N (before L s) env = exec I N s env' := by
  induction L generalizing env with
  | nil => rfl
  | cons l L ih =>
    have e : before (l :: L) s = .seq (.assign l.1 l.2) (before L s) := rfl
    simp only [e, exec, run, eval_val l.2 (hL l (by simp)) env]
    cases val I l.2 env with
    | none => exact ⟨env, rfl, Agree.refl env⟩
    | some v =>
      simp only [Out.of, Out.andThen, Res.bind, Option.bind_some]
      have := ih (fun l h => hL l (by simp [h])) (fun l h => hf l (by simp [h])) (env.set l.1 v)
      obtain ⟨j, hj⟩ := hf l (by simp)
      cases hr : run I L (env.set l.1 v) with
      | none =>
        rw [hr] at this
        obtain ⟨env', h1, h2⟩ := this
        refine ⟨env', h1, ?_⟩
        rw [hj] at h2
        exact ((Agree.refl env).set_fresh j v).trans h2
      | some env' => rw [hr] at this; exact this

/-- Both fail, or both succeed with the same value, and the states agree. -/
def SameVal (fresh : Nat → Str) : Out → Out → Prop
  | .ok v a, .ok w b => v = w ∧ Agree fresh a b
  | .raise a, .raise b => Agree fresh a b
  | _, _ => False

theorem sameVal_of {a b : Env} (h : Agree fresh a b) (v : Option Int) : SameVal fresh (.of a v) (.of b v) := by
  cases v with
  | none => exact h
  | some v => exact ⟨rfl, h⟩

theorem sameVal_bind {r r' : Out} {f g : Int → Env → Out} (h : SameVal fresh r r')
    (hfg : ∀ v a b, Agree fresh a b → SameVal fresh (f v a) (g v b)) : SameVal fresh (r.bind f) (r'.bind g) := by
  cases r <;> cases r' <;> try exact h.elim
  · obtain ⟨rfl, h⟩ := h
    exact hfg _ _ _ h
  · exact h

theorem eval_agree (e : Expr) (hv : ∀ n, ¬ e.Has (fresh n)) {a b : Env} (h : Agree fresh a b) :
    SameVal fresh (eval I e a) (eval I e b) := by
  induction e generalizing a b with
  | lit v => exact ⟨rfl, h⟩
  | var x =>
    have : a x = b x := h x (fun n e => hv n e)
    simp only [eval, this]
    exact sameVal_of h _
  | call f c ih => exact sameVal_bind (ih hv h) fun v a b h => sameVal_of h _
  | op f c d ihc ihd =>
    exact sameVal_bind (ihc (fun n h => hv n (Or.inl h)) h) fun v a b h =>
      sameVal_bind (ihd (fun n h => hv n (Or.inr h)) h) fun w a b h => sameVal_of h _
  | ite c d e ihc ihd ihe =>
    refine sameVal_bind (ihc (fun n h => hv n (Or.inl h)) h) fun v a b h => ?_
    split
    · exact ihd (fun n h => hv n (Or.inr (Or.inl h))) h
    · exact ihe (fun n h => hv n (Or.inr (Or.inr h))) h
  | walrus y c ih =>
    exact sameVal_bind (ih (fun n h => hv n (Or.inr h)) h) fun v a b h => ⟨rfl, h.set y v⟩
  | use k c ih => exact sameVal_bind (ih hv h) fun v a b h => sameVal_of h _

theorem lines_strict (e : Expr) (hs : uses e = 0 ∨ Strict e) (n : Nat) :
    ∀ l ∈ (conv fresh e ([], n)).2.1, Strict l.2 := by
  rcases hs with h0 | hs
  · rw [conv_none e h0]; simp
  · exact (strict_of_conv e hs [] n (by simp)).2

theorem same_then {r r' : Out} {f g : Int → Env → Res} (h : SameVal fresh r r')
    (hfg : ∀ v a b, Agree fresh a b → Same fresh (f v a) (g v b)) : Same fresh (r.andThen f) (r'.andThen g) := by
  cases r <;> cases r' <;> try exact h.elim
  · obtain ⟨rfl, h⟩ := h
    exact hfg _ _ _ h
  · exact h

/-- A statement that starts by computing `e`: the lines, then the statement with the converted expression, do the same. -/
theorem lines_then (N : Nat) (e : Expr) (hs : uses e = 0 ∨ Strict e) (hv : ∀ n, ¬ e.Has (fresh n)) (n : Nat)
    (hinj : (∀ i j, n ≤ i → i < n + uses e → n ≤ j → j < n + uses e → fresh i = fresh j → i = j))
    {f g : Int → Env → Res} (hfg : ∀ v a b, Agree fresh a b → Same fresh (f v a) (g v b)) {s' : Stmt}
    (hs' : ∀ env, exec I N s' env = (eval I (conv fresh e ([], n)).1 env).andThen g) {a b : Env} (h : Agree fresh a b) :
    Same fresh ((eval I e a).andThen f) (exec I N (before (conv fresh e ([], n)).2.1 s') b) := by
  have hb := exec_before (I := I) (fresh := fresh) N _ (lines_strict e hs n) (lines_fresh e ([], n) (by simp)) s' b
  rcases hs with h0 | hs
  · rw [conv_none e h0] at hs' hb ⊢
    simp only [run] at hb
    rw [hb, hs']
    exact same_then (eval_agree e hv h) hfg
  · obtain ⟨M, h1, -, h3⟩ := conv_ok (I := I) e hs hv a n [] n (by simp) (Nat.le_refl _) hinj
    have o := h3 b h
    rw [h1, List.nil_append] at hb ⊢
    rw [eval_val e hs]
    have s' := (strict_of_conv (fresh := fresh) e hs [] n (by simp)).1
    cases hva : val I e a with
    | none =>
      rcases o.bad hva with r | ⟨e2, r, q⟩
      · rw [r] at hb
        obtain ⟨env', hb, hag⟩ := hb
        rw [hb]
        exact h.trans hag
      · rw [r] at hb
        rw [hb, hs', eval_val _ s', q e2 (o.frame e2 r h).1 (fun _ _ _ => rfl)]
        exact (o.frame e2 r h).1
    | some v =>
      obtain ⟨e2, r, q⟩ := o.good v hva
      rw [r] at hb
      rw [hb, hs', eval_val _ s', q e2 (o.frame e2 r h).1 (fun _ _ _ => rfl)]
      exact hfg v a e2 (o.frame e2 r h).1

theorem same_bind {r r' : Res} {f g : Env → Res} (h : Same fresh r r')
    (hfg : ∀ a b, Agree fresh a b → Same fresh (f a) (g b)) : Same fresh (r.bind f) (r'.bind g) := by
  cases r <;> cases r' <;> first | exact h.elim | exact h | exact hfg _ _ h

theorem same_next {r r' : Res} {f g : Env → Res} (h : Same fresh r r')
    (hfg : ∀ a b, Agree fresh a b → Same fresh (f a) (g b)) : Same fresh (r.next f) (r'.next g) := by
  cases r <;> cases r' <;> first | exact h.elim | exact h | exact hfg _ _ h

theorem same_rescue {r r' : Res} {f g : Env → Res} (h : Same fresh r r')
    (hfg : ∀ a b, Agree fresh a b → Same fresh (f a) (g b)) : Same fresh (r.rescue f) (r'.rescue g) := by
  cases r <;> cases r' <;> first | exact h.elim | exact h | exact hfg _ _ h

theorem same_after {r r' : Res} {f g : Env → Res} (h : Same fresh r r')
    (hfg : ∀ a b, Agree fresh a b → Same fresh (f a) (g b)) : Same fresh (r.after f) (r'.after g) := by
  cases r <;> cases r' <;> first
    | exact h.elim
    | exact hfg _ _ h
    | exact same_bind (hfg _ _ h) fun a b h => h
    | exact same_bind (hfg _ _ h.2) fun a b h' => ⟨h.1, h'⟩
    | exact h

theorem same_loop {t t' : Env → Out} {f g : Env → Res}
    (ht : ∀ a b, Agree fresh a b → SameVal fresh (t a) (t' b))
    (hfg : ∀ a b, Agree fresh a b → Same fresh (f a) (g b)) (n : Nat) :
    ∀ a b, Agree fresh a b → Same fresh (loop t f n a) (loop t' g n b) := by
  induction n with
  | zero => intro a b _; trivial
  | succ n ih =>
    intro a b h
    refine same_then (ht a b h) fun v a b h => ?_
    split
    · exact h
    · exact same_next (hfg _ _ h) ih

theorem same_each {f g : Env → Res} (x : Str) (hfg : ∀ a b, Agree fresh a b → Same fresh (f a) (g b)) (l : List Int) :
    ∀ a b, Agree fresh a b → Same fresh (each x f l a) (each x g l b) := by
  induction l with
  | nil => intro a b h; exact h
  | cons v l ih => intro a b h; exact same_next (hfg _ _ (h.set x v)) ih

/-- The part of the hypotheses on names that the induction carries. -/
def Apart (fresh : Nat → Str) (s : Stmt) (n : Nat) : Prop :=
  (∀ i j, n ≤ i → i < n + total s → n ≤ j → j < n + total s → fresh i = fresh j → i = j) ∨ AtMostOne s

theorem convStmt_count (s : Stmt) (n : Nat) : (convStmt fresh s n).2 = n + total s := by
  induction s generalizing n with
  | skip | brk | cont => rfl
  | assign _ _ | ret _ | raise _ => simp only [convStmt, total, conv_count]
  | seq s t ihs iht | tryExc s t ihs iht | tryFin s t ihs iht => simp only [convStmt, total, ihs, iht]; omega
  | ite e s t ihs iht => simp only [convStmt, total, ihs, iht, conv_count]; omega
  | «while» e s ih | forIn x e s ih | withAs x e s ih => simp only [convStmt, total, ih, conv_count]; omega

/-- The hypotheses on names for a part of a statement. -/
theorem apart_part {s s' : Stmt} {n n' : Nat} (h : Apart fresh s n) (h1 : n ≤ n') (h2 : n' + total s' ≤ n + total s)
    (h3 : AtMostOne s → AtMostOne s') : Apart fresh s' n' :=
  h.imp (fun h i j a1 a2 a3 a4 => h i j (by omega) (by omega) (by omega) (by omega)) h3

theorem apart_head {s : Stmt} {e : Expr} {n : Nat} (h : Apart fresh s n) (h2 : uses e ≤ total s)
    (h3 : AtMostOne s → uses e ≤ 1) : ∀ i j, n ≤ i → i < n + uses e → n ≤ j → j < n + uses e → fresh i = fresh j → i = j := by
  rcases h with h | h
  · exact fun i j a1 a2 a3 a4 => h i j a1 (by omega) a3 (by omega)
  · intro i j _ _ _ _ _
    have := h3 h
    omega

theorem exec_same (N : Nat) (s : Stmt) (n : Nat) (hs : Straight s) (hv : ∀ m, ¬ s.Has (fresh m)) (hd : Apart fresh s n) :
    ∀ a b, Agree fresh a b → Same fresh (exec I N s a) (exec I N (convStmt fresh s n).1 b) := by
  induction s generalizing n with
  | skip | brk | cont => intro a b h; exact h
  | assign x e =>
    intro a b h
    exact lines_then (f := fun v env => .ok (env.set x v)) (g := fun v env => .ok (env.set x v)) N e hs
      (fun m h => hv m (Or.inr h)) n (apart_head hd (Nat.le_refl _) id) (fun v a b h => h.set x v) (fun _ => rfl) h
  | ret e =>
    intro a b h
    exact lines_then (f := .ret) (g := .ret) N e hs hv n (apart_head hd (Nat.le_refl _) id) (fun v a b h => ⟨rfl, h⟩) (fun _ => rfl) h
  | raise e =>
    intro a b h
    exact lines_then (f := fun _ env => .raise env) (g := fun _ env => .raise env) N e hs hv n
      (apart_head hd (Nat.le_refl _) id) (fun v a b h => h) (fun _ => rfl) h
  | seq s t ihs iht =>
    intro a b h
    simp only [convStmt, convStmt_count]
    exact same_bind (ihs n hs.1 (fun m h => hv m (Or.inl h)) (apart_part hd (Nat.le_refl _) (by simp only [total]; omega) And.left) a b h)
      (iht (n + total s) hs.2 (fun m h => hv m (Or.inr h)) (apart_part hd (by omega) (by simp only [total]; omega) And.right))
  | tryExc s t ihs iht =>
    intro a b h
    simp only [convStmt, convStmt_count]
    exact same_rescue (ihs n hs.1 (fun m h => hv m (Or.inl h)) (apart_part hd (Nat.le_refl _) (by simp only [total]; omega) And.left) a b h)
      (iht (n + total s) hs.2 (fun m h => hv m (Or.inr h)) (apart_part hd (by omega) (by simp only [total]; omega) And.right))
  | tryFin s t ihs iht =>
    intro a b h
    simp only [convStmt, convStmt_count]
    exact same_after (ihs n hs.1 (fun m h => hv m (Or.inl h)) (apart_part hd (Nat.le_refl _) (by simp only [total]; omega) And.left) a b h)
      (iht (n + total s) hs.2 (fun m h => hv m (Or.inr h)) (apart_part hd (by omega) (by simp only [total]; omega) And.right))
  | ite e s t ihs iht =>
    intro a b h
    have ks := ihs (n + uses e) hs.2.1 (fun m h => hv m (Or.inr (Or.inl h)))
      (apart_part hd (by omega) (by simp only [total]; omega) fun h => h.2.1)
    have kt := iht (n + uses e + total s) hs.2.2 (fun m h => hv m (Or.inr (Or.inr h)))
      (apart_part hd (by omega) (by simp only [total]; omega) fun h => h.2.2)
    simp only [convStmt, conv_count, convStmt_count]
    refine lines_then N e hs.1 (fun m h => hv m (Or.inl h)) n (apart_head hd (by simp only [total]; omega) And.left)
      (fun v a b h => ?_) (fun _ => rfl) h
    split
    · exact ks _ _ h
    · exact kt _ _ h
  | «while» e s ih =>
    intro a b h
    have k := ih n hs.2 (fun m h => hv m (Or.inr h)) (apart_part hd (Nat.le_refl _) (by simp only [total]; omega) And.right)
    simp only [convStmt, conv_none e hs.1]
    exact same_loop (fun a b h => eval_agree e (fun m h => hv m (Or.inl h)) h) k N a b h
  | forIn x e s ih =>
    intro a b h
    have k := ih (n + uses e) hs.2 (fun m h => hv m (Or.inr (Or.inr h)))
      (apart_part hd (by omega) (by simp only [total]; omega) And.right)
    simp only [convStmt, conv_count]
    exact lines_then (f := fun v env => each x (exec I N s) (I.items v) env)
      (g := fun v env => each x (exec I N (convStmt fresh s (n + uses e)).1) (I.items v) env) N e hs.1
      (fun m h => hv m (Or.inr (Or.inl h))) n (apart_head hd (by simp only [total]; omega) And.left)
      (fun v a b h => same_each x k _ _ _ h) (fun _ => rfl) h
  | withAs x e s ih =>
    intro a b h
    have k := ih (n + uses e) hs.2 (fun m h => hv m (Or.inr (Or.inr h)))
      (apart_part hd (by omega) (by simp only [total]; omega) And.right)
    simp only [convStmt, conv_count]
    exact lines_then N e hs.1 (fun m h => hv m (Or.inr (Or.inl h))) n (apart_head hd (by simp only [total]; omega) And.left)
      (fun v a b h => k _ _ (h.set x v)) (fun _ => rfl) h

theorem callFn_same (N : Nat) {x : Str} {s : Stmt} {n : Nat} (hs : Straight s) (hv : ∀ m, ¬ s.Has (fresh m))
    (hd : Apart fresh s n) (v : Int) : callFn I N x s v = callFn I N x (convStmt fresh s n).1 v := by
  have h := exec_same (I := I) N s n hs hv hd _ _ (Agree.refl (Env.set (fun _ => none) x v))
  unfold callFn
  generalize exec I N s _ = r at h
  generalize exec I N (convStmt fresh s n).1 _ = r' at h
  cases r <;> cases r' <;> first | exact h.elim | rfl | exact congrArg some h.1

/-- **C64, functions.** Every function of a program does the same after conversion, whatever the functions call: the same value for
every argument, or both fail. -/
theorem C64_functions_partial (I : Interp) (fresh : Nat → Str) (start : Nat → Nat) (F : Fns)
    (hF : ∀ f x s, F f = some (x, s) → Straight s ∧ (∀ m, ¬ s.Has (fresh m)) ∧
      ∀ i j, start f ≤ i → i < start f + total s → start f ≤ j → j < start f + total s → fresh i = fresh j → i = j) (N d : Nat) :
    interp (convFns fresh start F) I N d = interp F I N d := by
  induction d with
  | zero => simp [interp, convFns]
  | succ d ih =>
    simp only [interp, Interp.mk.injEq, and_true]
    funext f v
    simp only [convFns]
    cases hf : F f with
    | none => rfl
    | some p =>
      obtain ⟨x, s⟩ := p
      obtain ⟨h1, h2, h3⟩ := hF f x s hf
      simp only [Option.map_some, ih]
      exact (callFn_same N h1 h2 (Or.inl h3) v).symm

/-- **C64.** A program in which every API call sits where it is always evaluated with its statement, and once (`Straight`), does
the same after conversion: it raises where it raised, loops as long as it looped, and leaves every variable of the program with
the same value. For all programs, all meanings of the operations and all states, provided that no two helper variables have
the same name and none is a variable of the program. -/
theorem C64_straight_partial (I : Interp) (fresh : Nat → Str) (p : Stmt) (hs : Straight p) (hv : ∀ m, ¬ p.Has (fresh m))
    (hf : ∀ i j, i < total p → j < total p → fresh i = fresh j → i = j) (N : Nat) (env : Env) :
    Same fresh (exec I N p env) (exec I N (convStmt fresh p 0).1 env) :=
  exec_same N p 0 hs hv (Or.inl fun i j _ h _ h' => hf i j (by omega) (by omega)) env env (Agree.refl env)

/-- The same with the names of the generator, whatever keys the matchers ask for. -/
theorem C64_generated_partial (I : Interp) (keys : List Str) (p : Stmt) (hs : Straight p) (hk : total p ≤ keys.length)
    (hv : ∀ x, p.Has x → x ∉ Names.names [] keys ∧ x ≠ []) (N : Nat) (env : Env) :
    let fresh := fun i => (Names.names [] keys).getD i []
    Same fresh (exec I N p env) (exec I N (convStmt fresh p 0).1 env) := by
  intro fresh
  have hnd := Names.C01_names_never_repeat keys
  have hl := Names.names_length [] keys
  refine C64_straight_partial I fresh p hs ?_ ?_ N env
  · intro m hm
    have q := hv _ hm
    by_cases h : m < (Names.names [] keys).length
    · refine q.1 ?_
      simp only [fresh, List.getD_eq_getElem?_getD, List.getElem?_eq_getElem h, Option.getD_some]
      exact List.getElem_mem h
    · refine q.2 ?_
      have h' : (Names.names [] keys)[m]? = none := List.getElem?_eq_none (by omega)
      simp only [fresh, List.getD_eq_getElem?_getD, h', Option.getD_none]
  · intro i j hi hj e
    have h1 : i < (Names.names [] keys).length := by omega
    have h2 : j < (Names.names [] keys).length := by omega
    simp only [fresh, List.getD_eq_getElem?_getD, List.getElem?_eq_getElem h1, List.getElem?_eq_getElem h2,
      Option.getD_some] at e
    exact (List.getElem_inj (h₀ := h1) (h₁ := h2) hnd).1 e

/-- Names may even repeat (a matcher with a fixed name) as long as no statement has two calls. -/
theorem C64_fixed_name_partial (I : Interp) (fresh : Nat → Str) (p : Stmt) (hs : Straight p) (h1 : AtMostOne p)
    (hv : ∀ m, ¬ p.Has (fresh m)) (N : Nat) (env : Env) :
    Same fresh (exec I N p env) (exec I N (convStmt fresh p 0).1 env) :=
  exec_same N p 0 hs hv (Or.inr h1) env env (Agree.refl env)

/-- A program with functions. -/
theorem C64_program_partial (I : Interp) (fresh : Nat → Str) (start : Nat → Nat) (F : Fns) (p : Stmt) (n : Nat)
    (hF : ∀ f x s, F f = some (x, s) → Straight s ∧ (∀ m, ¬ s.Has (fresh m)) ∧
      ∀ i j, start f ≤ i → i < start f + total s → start f ≤ j → j < start f + total s → fresh i = fresh j → i = j)
    (hs : Straight p) (hv : ∀ m, ¬ p.Has (fresh m))
    (hf : ∀ i j, n ≤ i → i < n + total p → n ≤ j → j < n + total p → fresh i = fresh j → i = j) (N d : Nat) (env : Env) :
    Same fresh (exec (interp F I N d) N p env) (exec (interp (convFns fresh start F) I N d) N (convStmt fresh p n).1 env) := by
  rw [C64_functions_partial I fresh start F hF]
  exact exec_same N p n hs hv (Or.inl hf) env env (Agree.refl env)

section Witness

/-- `call` fails below zero and doubles otherwise; operation 0 subtracts, 1 gives the second operand, the others add. -/
def toy : Interp where
  call _ v := if v < 0 then none else some (2 * v)
  op f v w := if f = 0 then some (v - w) else if f = 1 then some w else some (v + w)
  items v := List.replicate v.toNat v

def tmp (n : Nat) : Str := py"perm_" ++ Str.ofNat n

/-- `while x: x = use(x) - use(3)` then `if use(x): y = x` -/
def ordinary : Stmt :=
  .seq (.while (.var py"x") (.assign py"x" (.op 0 (.use 1 (.var py"x")) (.use 1 (.use 1 (.lit 3))))))
    (.ite (.use 1 (.var py"x")) (.assign py"y" (.var py"x")) .skip)

example : Straight ordinary ∧ total ordinary = 4 ∧ (∀ m, ¬ ordinary.Has (tmp m)) ∧
    (convStmt tmp ordinary 0).1 ≠ ordinary := by
  refine ⟨by simp [ordinary, Straight, uses, Strict], rfl, ?_, by decide⟩
  intro m
  simp [ordinary, Stmt.Has, Expr.Has, tmp]

/-- `x = use(x) + 1; if use(x): y = x` with the names of the generator, and with one name for all -/
def plain : Stmt :=
  .seq (.assign py"x" (.op 2 (.use 1 (.var py"x")) (.lit 1))) (.ite (.use 1 (.var py"x")) (.assign py"y" (.var py"x")) .skip)

example : Straight plain ∧ AtMostOne plain ∧ (∀ x, plain.Has x → x ∉ Names.names [] [py"perm", py"exp_v"] ∧ x ≠ []) ∧
    ¬ plain.Has py"tmp_lr" ∧ (convStmt (fun _ => py"tmp_lr") plain 0).1 ≠ plain := by
  refine ⟨by simp [plain, Straight, Strict], by simp [plain, AtMostOne, uses], ?_, ?_, by decide⟩
  · intro x hx
    have : x = py"x" ∨ x = py"y" := by simp only [plain, Stmt.Has, Expr.Has] at hx; grind
    rcases this with rfl | rfl <;> decide
  · simp [plain, Stmt.Has, Expr.Has]

/-- A function 7 with a parameter `x`:
`for i in use(x): try: x = use(f7(i)) except: continue finally: with use(x) as y: if y: break`, then `return use(x)` -/
def fns : Fns := fun f => if f = 7 then some (py"x",
  .seq (.forIn py"i" (.use 1 (.var py"x")) (.tryFin
    (.tryExc (.assign py"x" (.use 1 (.call 7 (.var py"i")))) .cont)
    (.withAs py"y" (.use 1 (.var py"x")) (.ite (.var py"y") .brk .skip))))
    (.ret (.use 1 (.var py"x")))) else none

example : (∀ f x s, fns f = some (x, s) → Straight s ∧ (∀ m, ¬ s.Has (tmp m)) ∧
      ∀ i j, 0 ≤ i → i < 0 + total s → 0 ≤ j → j < 0 + total s → tmp i = tmp j → i = j) ∧
    (interp fns toy 1 2).call 7 3 = some 48 ∧ (convFns tmp (fun _ => 0) fns 7).isSome := by
  refine ⟨fun f x s h => ?_, by decide, by decide⟩
  simp only [fns] at h
  split at h
  · cases h
    refine ⟨by simp [Straight, Strict, uses], fun m => by simp [Stmt.Has, Expr.Has, tmp], ?_⟩
    have : ∀ i, i < 4 → ∀ j, j < 4 → tmp i = tmp j → i = j := by decide
    intro i j _ hi _ hj e
    exact this i (by simpa [total, uses] using hi) j (by simpa [total, uses] using hj) e
  · cases h

/-- `while use(x): x = x - 1` -/
def testLoop : Stmt := .while (.use 1 (.var py"x")) (.assign py"x" (.op 0 (.var py"x") (.lit 1)))

/-- `y = use(x) if c else x` -/
def guarded : Stmt := .assign py"y" (.ite (.var py"c") (.use 1 (.var py"x")) (.var py"x"))

/-- `y = (x := 5) + use(x)` -/
def ordered : Stmt := .assign py"y" (.op 2 (.walrus py"x" (.lit 5)) (.use 1 (.var py"x")))

/-- `y = use(a) + use(b)` -/
def twice : Stmt := .assign py"y" (.op 2 (.use 1 (.var py"a")) (.use 1 (.var py"b")))

def start (l : List (Str × Int)) : Env := fun x => (l.find? (·.1 = x)).map (·.2)

/-- The value of a variable at the end. -/
def Res.get (x : Str) : Res → Option Int
  | .ok env => env x
  | _ => none

end Witness

/-- A call in the test of a `while`: the helper line runs once, before the loop. A loop that ends after three rounds
never ends after conversion. -/
theorem C64_while_test_negative : ∃ (I : Interp) (p : Stmt) (env : Env), (∀ m, ¬ p.Has (tmp m)) ∧
    (∃ out, exec I 4 p env = .ok out) ∧ ∀ N, exec I N (convStmt tmp p 0).1 env = .fuel := by
  refine ⟨toy, testLoop, start [(py"x", 3)], ?_, ⟨_, rfl⟩, ?_⟩
  · intro m; simp [testLoop, Stmt.Has, Expr.Has, tmp]
  · intro N
    have key : ∀ n (env : Env), env py"perm_0" = some 6 → (∃ k, env py"x" = some k) →
        loop (eval toy (.op 1 (.var py"x") (.var py"perm_0")))
          (exec toy N (.assign py"x" (.op 0 (.var py"x") (.lit 1)))) n env = .fuel := by
      intro n
      induction n with
      | zero => intro env _ _; rfl
      | succ n ih =>
        rintro env h1 ⟨k, h2⟩
        have ht : eval toy (.op 1 (.var py"x") (.var py"perm_0")) env = .ok 6 env := by
          simp [eval, h1, h2, toy, Out.bind, Out.of]
        have hb : exec toy N (.assign py"x" (.op 0 (.var py"x") (.lit 1))) env = .ok (env.set py"x" (k - 1)) := by
          simp [exec, eval, h2, toy, Out.bind, Out.of, Out.andThen]
        simp only [loop, ht, hb, Res.next, Out.andThen]
        rw [if_neg (by decide)]
        exact ih _ (by simp [Env.set, h1]) ⟨k - 1, by simp [Env.set]⟩
    exact key N _ rfl ⟨3, rfl⟩

/-- A call in a branch of a conditional expression: the helper line runs although the branch is not taken, and raises. -/
theorem C64_guard_negative : ∃ (I : Interp) (p : Stmt) (env : Env), (∀ m, ¬ p.Has (tmp m)) ∧
    (∃ out, exec I 1 p env = .ok out) ∧ ∀ N, ∃ out, exec I N (convStmt tmp p 0).1 env = .raise out := by
  refine ⟨toy, guarded, start [(py"c", 0), (py"x", -1)], ?_, ⟨_, rfl⟩, fun _ => ⟨_, rfl⟩⟩
  intro m; simp [guarded, Stmt.Has, Expr.Has, tmp]

/-- An assignment earlier in the same expression: the helper line runs before it and takes the old value. -/
theorem C64_order_negative : ∃ (I : Interp) (p : Stmt) (env : Env), (∀ m, ¬ p.Has (tmp m)) ∧
    ∀ N, (exec I N p env).get py"y" = some 15 ∧ (exec I N (convStmt tmp p 0).1 env).get py"y" = some 7 := by
  refine ⟨toy, ordered, start [(py"x", 1)], ?_, fun _ => ⟨rfl, rfl⟩⟩
  intro m; simp [ordered, Stmt.Has, Expr.Has, tmp]

/-- Two calls in one statement and a fixed name for the helper variable: both expressions read the last value. -/
theorem C64_fixed_name_negative : ∃ (I : Interp) (p : Stmt) (env : Env), Straight p ∧ ¬ p.Has py"tmp_lr" ∧
    ∀ N, (exec I N p env).get py"y" = some 6 ∧ (exec I N (convStmt (fun _ => py"tmp_lr") p 0).1 env).get py"y" = some 8 := by
  refine ⟨toy, twice, start [(py"a", 1), (py"b", 2)], ?_, ?_, fun _ => ⟨rfl, rfl⟩⟩
  · simp [twice, Straight, Strict]
  · simp [twice, Stmt.Has, Expr.Has]

end Verif.Hoist
