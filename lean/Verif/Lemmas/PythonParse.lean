import Verif.Lemmas.PythonText

/-!
# Checking code with gaps

A list of tokens with gaps stands for all the lists of tokens that come about when the gaps are filled. `parse` checks that all
of them follow the grammar.
-/

namespace Verif.Spec.Python
open Verif

inductive ATok
  | tok (t : Tok)
  /-- an expression that binds at this level -/
  | hole (n : Nat)
  /-- a name -/
  | name
  /-- something that can be assigned to -/
  | target
  /-- keyword arguments -/
  | kws
  deriving DecidableEq

/-- The gaps are filled. -/
def Inst : List ATok → List Tok → Prop
  | [], ts => ts = []
  | .tok t :: as, ts => ∃ us, ts = t :: us ∧ Inst as us
  | .hole n :: as, ts => ∃ a us, ts = a ++ us ∧ G (.expr n) a ∧ Inst as us
  | .name :: as, ts => ∃ w us, ts = .word w :: us ∧ name w = true ∧ Inst as us
  | .target :: as, ts => ∃ a us, ts = a ++ us ∧ G .target a ∧ Inst as us
  | .kws :: as, ts => ∃ a us, ts = a ++ us ∧ G .kwargs a ∧ Inst as us

theorem Inst.append_iff {a b : List ATok} {ts : List Tok} : Inst (a ++ b) ts ↔ ∃ u v, ts = u ++ v ∧ Inst a u ∧ Inst b v := by
  induction a generalizing ts with
  | nil =>
    simp only [List.nil_append, Inst]
    exact ⟨fun h => ⟨[], ts, rfl, rfl, h⟩, by rintro ⟨_, _, rfl, rfl, h⟩; exact h⟩
  | cons x a ih =>
    cases x with
    | tok t =>
      simp only [List.cons_append, Inst, ih]
      constructor
      · rintro ⟨_, rfl, u, v, rfl, h1, h2⟩; exact ⟨t :: u, v, rfl, ⟨u, rfl, h1⟩, h2⟩
      · rintro ⟨_, v, rfl, ⟨u, rfl, h1⟩, h2⟩; exact ⟨u ++ v, rfl, u, v, rfl, h1, h2⟩
    | hole n =>
      simp only [List.cons_append, Inst, ih]
      constructor
      · rintro ⟨x, _, rfl, hx, u, v, rfl, h1, h2⟩; exact ⟨x ++ u, v, by simp, ⟨x, u, rfl, hx, h1⟩, h2⟩
      · rintro ⟨_, v, rfl, ⟨x, u, rfl, hx, h1⟩, h2⟩; exact ⟨x, u ++ v, by simp, hx, u, v, rfl, h1, h2⟩
    | name =>
      simp only [List.cons_append, Inst, ih]
      constructor
      · rintro ⟨w, _, rfl, hw, u, v, rfl, h1, h2⟩; exact ⟨.word w :: u, v, rfl, ⟨w, u, rfl, hw, h1⟩, h2⟩
      · rintro ⟨_, v, rfl, ⟨w, u, rfl, hw, h1⟩, h2⟩; exact ⟨w, u ++ v, rfl, hw, u, v, rfl, h1, h2⟩
    | target =>
      simp only [List.cons_append, Inst, ih]
      constructor
      · rintro ⟨x, _, rfl, hx, u, v, rfl, h1, h2⟩; exact ⟨x ++ u, v, by simp, ⟨x, u, rfl, hx, h1⟩, h2⟩
      · rintro ⟨_, v, rfl, ⟨x, u, rfl, hx, h1⟩, h2⟩; exact ⟨x, u ++ v, by simp, hx, u, v, rfl, h1, h2⟩
    | kws =>
      simp only [List.cons_append, Inst, ih]
      constructor
      · rintro ⟨x, _, rfl, hx, u, v, rfl, h1, h2⟩; exact ⟨x ++ u, v, by simp, ⟨x, u, rfl, hx, h1⟩, h2⟩
      · rintro ⟨_, v, rfl, ⟨x, u, rfl, hx, h1⟩, h2⟩; exact ⟨x, u ++ v, by simp, hx, u, v, rfl, h1, h2⟩

theorem Inst.toks {o ts : List Tok} (h : Inst (o.map .tok) ts) : ts = o := by
  induction o generalizing ts with
  | nil => exact h
  | cons t o ih => obtain ⟨us, rfl, h⟩ := h; rw [ih h]

/-- All the ways to fill the gaps give something of this form. -/
def Always (c : Cat) (as : List ATok) : Prop := ∀ ts, Inst as ts → G c ts

/-! ## The parser -/

/-- What to read. -/
inductive What
  | e (n : Nat)
  /-- more of an expression of which a part that binds at level `l` has been read -/
  | loop (l n : Nat)
  /-- more of an expression that begins with a name, a string or a bracket -/
  | trail
  /-- up to the closing bracket -/
  | args
  | kwargs
  | items (close : Str)
  | list
  | slices
  | exprs
  /-- more of `exprs` after a comma -/
  | tail
  | target
  /-- more of a target; `ok`: it could end here -/
  | targetTrail (ok : Bool)
  | targets
  | path
  | simple
  | code

/-- The binary operator at the beginning. -/
def binOp : List ATok → Option (List Tok × Nat × List ATok)
  | .tok (.word w) :: .tok (.word v) :: r =>
    match binary.find? fun p => p.1 == [.word w, .word v] with
    | some p => some (p.1, p.2, r)
    | none => (binary.find? fun p => p.1 == [.word w]).map fun p => (p.1, p.2, .tok (.word v) :: r)
  | .tok t :: r => (binary.find? fun p => p.1 == [t]).map fun p => (p.1, p.2, r)
  | _ => none

def headIs (t : Tok) : List ATok → Bool
  | .tok x :: _ => x == t
  | _ => false

/-- Remove this token. -/
def eat (t : Tok) : List ATok → Option (List ATok)
  | .tok x :: r => if x = t then some r else none
  | _ => none

def parse : Nat → What → List ATok → Option (List ATok)
  | 0, _, _ => none
  | f + 1, .e n, as =>
    let prim (r : List ATok) : Option (List ATok) := (parse f .trail r).bind (parse f (.loop 14 n))
    match as with
    | .hole m :: r => if Nat.ble 14 m then prim r else parse f (.loop m n) r
    | .name :: r => prim r
    | .target :: r => prim r
    | .tok .num :: r => parse f (.loop 13 n) r
    | .tok .str :: r => prim r
    | .tok (.word w) :: r =>
      if w = py"not" then (parse f (.e 3) r).bind (parse f (.loop 3 n))
      else if value w then prim r else none
    | .tok (.op s) :: r =>
      if s = py"-" then (parse f (.e 11) r).bind (parse f (.loop 11 n))
      else if s = py"(" then (parse f (.items py")") r).bind prim
      else if s = py"[" then (parse f .list r).bind prim
      else none
    | _ => none
  | f + 1, .loop l n, as =>
    if headIs (.op py"**") as && Nat.ble n 12 && Nat.ble 13 l then
      ((eat (.op py"**") as).bind (parse f (.e 11))).bind (parse f (.loop 12 n))
    else if headIs (.word py"if") as && Nat.beq n 0 && Nat.ble 1 l then
      (((eat (.word py"if") as).bind (parse f (.e 1))).bind (eat (.word py"else"))).bind (parse f (.e 0))
    else
      let stop := if Nat.ble n l then some as else none
      match binOp as with
      | some (_, m, r) => if Nat.ble n m && Nat.ble m l then (parse f (.e (m + 1)) r).bind (parse f (.loop m n)) else stop
      | none => stop
  | f + 1, .trail, as =>
    match as with
    | .tok (.op s) :: r =>
      if s = py"(" then (parse f .args r).bind (parse f .trail)
      else if s = py"[" then (parse f .slices r).bind (parse f .trail)
      else if s = py"." then
        match r with
        | .tok (.word w) :: r => if name w then parse f .trail r else none
        | _ => none
      else some as
    | _ => some as
  | f + 1, .args, as =>
    match as with
    | .kws :: r => eat (.op py")") r
    | .tok (.op s) :: r => if s = py")" then some r else
      (parse f (.e 0) as).bind fun r => if headIs (.op py",") r then (eat (.op py",") r).bind (parse f .args) else eat (.op py")") r
    | .tok (.word w) :: .tok (.op s) :: r =>
      if s = py"=" then parse f .kwargs as
      else (parse f (.e 0) (.tok (.word w) :: .tok (.op s) :: r)).bind fun r =>
        if headIs (.op py",") r then (eat (.op py",") r).bind (parse f .args) else eat (.op py")") r
    | as => (parse f (.e 0) as).bind fun r =>
        if headIs (.op py",") r then (eat (.op py",") r).bind (parse f .args) else eat (.op py")") r
  | f + 1, .kwargs, as =>
    match as with
    | .tok (.word w) :: .tok (.op s) :: r =>
      if s = py"=" ∧ name w = true then
        (parse f (.e 0) r).bind fun r =>
          if headIs (.op py",") r then (eat (.op py",") r).bind (parse f .kwargs) else eat (.op py")") r
      else none
    | .kws :: r => eat (.op py")") r
    | as => eat (.op py")") as
  | f + 1, .items cl, as =>
    if headIs (.op cl) as then eat (.op cl) as
    else (parse f (.e 0) as).bind fun r =>
      if headIs (.op py",") r then (eat (.op py",") r).bind (parse f (.items cl)) else eat (.op cl) r
  | f + 1, .list, as =>
    match parse f (.e 0) as with
    | some (.tok (.word a) :: .tok (.word w) :: .tok (.word b) :: r) =>
      if a = py"for" ∧ b = py"in" ∧ name w = true then (parse f (.e 1) r).bind (eat (.op py"]")) else none
    | _ => parse f (.items py"]") as
  | f + 1, .slices, as =>
    let rest (as : List ATok) : Option (List ATok) :=
      if headIs (.op py"]") as then eat (.op py"]") as else (parse f (.e 0) as).bind (eat (.op py"]"))
    if headIs (.op py":") as then (eat (.op py":") as).bind rest
    else (parse f (.e 0) as).bind fun r =>
      if headIs (.op py":") r then (eat (.op py":") r).bind rest else eat (.op py"]") r
  | f + 1, .exprs, as =>
    (parse f (.e 0) as).bind fun r =>
      if headIs (.op py",") r then (eat (.op py",") r).bind (parse f .tail) else some r
  | f + 1, .tail, as =>
    match as with
    | [] => some []
    | .tok (.nl n) :: r => some (.tok (.nl n) :: r)
    | as => (parse f (.e 0) as).bind fun r =>
      if headIs (.op py",") r then (eat (.op py",") r).bind (parse f .tail) else some r
  | f + 1, .target, as =>
    match as with
    | .name :: r => parse f (.targetTrail true) r
    | .target :: r => parse f (.targetTrail true) r
    | .tok (.word w) :: r => if name w then parse f (.targetTrail true) r else none
    | .hole m :: r => if Nat.ble 14 m then parse f (.targetTrail false) r else none
    | _ => none
  | f + 1, .targetTrail ok, as =>
    match as with
    | .tok (.op s) :: r =>
      if s = py"(" then (parse f .args r).bind (parse f (.targetTrail false))
      else if s = py"[" then (parse f .slices r).bind (parse f (.targetTrail true))
      else if s = py"." then
        match r with
        | .tok (.word w) :: r => if name w then parse f (.targetTrail true) r else none
        | _ => none
      else if ok then some as else none
    | _ => if ok then some as else none
  | f + 1, .targets, as =>
    (parse f .target as).bind fun r => if headIs (.op py",") r then (eat (.op py",") r).bind (parse f .targets) else some r
  | f + 1, .path, as =>
    match as with
    | .tok (.word w) :: r =>
      if name w then (if headIs (.op py".") r then (eat (.op py".") r).bind (parse f .path) else some r) else none
    | _ => none
  | f + 1, .simple, as =>
    if headIs (.word py"import") as then
      ((eat (.word py"import") as).bind (parse f .path)).bind fun r =>
        match r with
        | .tok (.word a) :: .tok (.word w) :: r' => if a = py"as" ∧ name w = true then some r' else some r
        | _ => some r
    else if headIs (.word py"assert") as then
      ((eat (.word py"assert") as).bind (parse f (.e 0))).bind fun r =>
        if headIs (.op py",") r then (eat (.op py",") r).bind (parse f (.e 0)) else some r
    else
      match parse f .targets as with
      | some r => if headIs (.op py"=") r then (eat (.op py"=") r).bind (parse f .exprs) else parse f .exprs as
      | none => parse f .exprs as
  | f + 1, .code, as =>
    (eat (.nl 0) as).bind fun r =>
      let block (h : Option (List ATok)) : Option (List ATok) :=
        h.bind fun r =>
          match r with
          | .tok (.op s) :: .tok (.nl k) :: r =>
            if s = py":" ∧ 0 < k then (parse f .simple r).bind (parse f .code) else none
          | _ => none
      match r with
      | .tok (.word a) :: .tok (.word w) :: .tok (.word b) :: r' =>
        if a = py"for" ∧ name w = true ∧ b = py"in" then block (parse f .exprs r')
        else if a = py"if" then block (parse f (.e 0) (.tok (.word w) :: .tok (.word b) :: r'))
        else (parse f .simple r).bind (parse f .code)
      | r =>
        if headIs (.word py"if") r then block ((eat (.word py"if") r).bind (parse f (.e 0)))
        else
          match parse f .exprs r with
          | some [] => some []
          | some [.tok (.nl _)] => some []
          | _ => (parse f .simple r).bind (parse f .code)

/-! ## Soundness -/

def Post : What → List ATok → Prop
  | .e n, as => Always (.expr n) as
  | .loop l n, as => ∀ left, Always (.expr l) left → Always (.expr n) (left ++ as)
  | .trail, as => ∀ left, Always (.expr 14) left → Always (.expr 14) (left ++ as)
  | .args, as => ∃ b, as = b ++ [.tok (.op py")")] ∧ Always .args b
  | .kwargs, as => ∃ b, as = b ++ [.tok (.op py")")] ∧ Always .kwargs b
  | .items cl, as => ∃ b, as = b ++ [.tok (.op cl)] ∧ Always .items b
  | .list, as => Always (.expr 14) (.tok (.op py"[") :: as)
  | .slices, as => ∃ b, as = b ++ [.tok (.op py"]")] ∧ Always .slices b
  | .exprs, as => Always .exprs as
  | .tail, as => Always .items as
  | .target, as => Always .target as
  | .targetTrail ok, as => ∀ left, Always (.expr 14) left → (ok = true → Always .target left) → Always .target (left ++ as)
  | .targets, as => Always .targets as
  | .path, as => Always .path as
  | .simple, as => Always .simple as
  | .code, as => Always .code as

theorem eat_some {t : Tok} {as r : List ATok} (h : eat t as = some r) : as = .tok t :: r := by
  unfold eat at h
  split at h
  · next x r' =>
    split at h
    · next hx => simp only [Option.some.injEq] at h; rw [hx, h]
    · simp at h
  · simp at h

theorem binOp_some {as : List ATok} {o : List Tok} {m : Nat} {r : List ATok} (h : binOp as = some (o, m, r)) :
    (o, m) ∈ binary ∧ as = o.map .tok ++ r := by
  unfold binOp at h
  split at h
  · next w v r' =>
    split at h
    · next p hp =>
      simp only [Option.some.injEq, Prod.mk.injEq] at h
      obtain ⟨rfl, rfl, rfl⟩ := h
      have h1 := List.mem_of_find?_eq_some hp
      have h2 := List.find?_some hp
      simp only [beq_iff_eq] at h2
      exact ⟨h1, by rw [h2]; rfl⟩
    · simp only [Option.map_eq_some_iff, Prod.mk.injEq] at h
      obtain ⟨p, hp, rfl, rfl, rfl⟩ := h
      have h1 := List.mem_of_find?_eq_some hp
      have h2 := List.find?_some hp
      simp only [beq_iff_eq] at h2
      exact ⟨h1, by rw [h2]; rfl⟩
  · simp only [Option.map_eq_some_iff, Prod.mk.injEq] at h
    obtain ⟨p, hp, rfl, rfl, rfl⟩ := h
    have h1 := List.mem_of_find?_eq_some hp
    have h2 := List.find?_some hp
    simp only [beq_iff_eq] at h2
    exact ⟨h1, by rw [h2]; rfl⟩
  · simp at h

theorem Always.cons {c : Cat} {t : Tok} {as : List ATok} (h : ∀ ts, Inst as ts → G c (t :: ts)) : Always c (.tok t :: as) := by
  rintro _ ⟨us, rfl, hu⟩; exact h us hu

theorem Always.app {c : Cat} {a b : List ATok} (h : ∀ us vs, Inst a us → Inst b vs → G c (us ++ vs)) : Always c (a ++ b) := by
  intro ts hts
  obtain ⟨u, v, rfl, hu, hv⟩ := Inst.append_iff.1 hts
  exact h u v hu hv

theorem Inst.cons {t : Tok} {as : List ATok} {ts : List Tok} (h : Inst (.tok t :: as) ts) : ∃ us, ts = t :: us ∧ Inst as us := h

theorem Inst.one {t : Tok} {ts : List Tok} (h : Inst [.tok t] ts) : ts = [t] := by
  obtain ⟨us, rfl, h⟩ := h; rw [show us = [] from h]

/-- What `parse` reads with this much fuel has the form it was asked for. -/
def Sound (f : Nat) : Prop := ∀ w as r, parse f w as = some r → ∃ pre, as = pre ++ r ∧ Post w pre

theorem Always.hole (n : Nat) : Always (.expr n) [.hole n] := by
  rintro _ ⟨a, us, rfl, ha, hu⟩
  rw [show us = [] from hu, List.append_nil]; exact ha

theorem Always.weaken {n m : Nat} {as : List ATok} (h : Always (.expr m) as) (hn : n ≤ m) : Always (.expr n) as :=
  fun ts ht => (h ts ht).weaken hn

theorem value_of_name {w : Str} (h : name w = true) : value w = true := by
  unfold name at h
  exact (Bool.and_eq_true _ _ ▸ h : value w = true ∧ _).1

theorem Always.name : Always (.expr 14) [.name] := by
  rintro _ ⟨w, us, rfl, hw, hu⟩
  rw [show us = [] from hu]; exact .val (value_of_name hw)

theorem expr_of_target {a : List Tok} (h : G .target a) : G (.expr 14) a := by
  cases h with
  | nameTarget h => exact .val (value_of_name h)
  | attrTarget h hw => exact .attr h hw
  | subTarget h hb => exact .sub h hb

theorem Always.target : Always .target [.target] := by
  rintro _ ⟨a, us, rfl, ha, hu⟩
  rw [show us = [] from hu, List.append_nil]; exact ha

theorem Always.targetExpr : Always (.expr 14) [.target] := fun ts h => expr_of_target (Always.target ts h)

theorem Always.ofTok {c : Cat} {t : Tok} (h : G c [t]) : Always c [.tok t] := by
  intro ts ht; rw [ht.one]; exact h

theorem sound_prim {f : Nat} (ih : Sound f) {n : Nat} {as r : List ATok} {left : List ATok}
    (hl : Always (.expr 14) left) (h : (parse f .trail as).bind (parse f (.loop 14 n)) = some r) :
    ∃ pre, as = pre ++ r ∧ Always (.expr n) (left ++ pre) := by
  obtain ⟨r1, h1, h2⟩ := Option.bind_eq_some_iff.1 h
  obtain ⟨p1, rfl, q1⟩ := ih _ _ _ h1
  obtain ⟨p2, rfl, q2⟩ := ih _ _ _ h2
  refine ⟨p1 ++ p2, by simp, ?_⟩
  rw [← List.append_assoc]
  exact q2 _ (q1 _ hl)

theorem sound_e {f : Nat} (ih : Sound f) (n : Nat) (as r : List ATok) (h : parse (f + 1) (.e n) as = some r) :
    ∃ pre, as = pre ++ r ∧ Post (.e n) pre := by
  simp only [parse] at h
  split at h
  · next m r' =>
    split at h
    · next hm =>
      obtain ⟨p, rfl, q⟩ := sound_prim ih (left := [.hole m]) ((Always.hole m).weaken (Nat.le_of_ble_eq_true hm)) h
      exact ⟨.hole m :: p, rfl, q⟩
    · obtain ⟨p, rfl, q⟩ := ih _ _ _ h
      exact ⟨.hole m :: p, rfl, q [.hole m] (Always.hole m)⟩
  · next r' =>
    obtain ⟨p, rfl, q⟩ := sound_prim ih (left := [.name]) Always.name h
    exact ⟨.name :: p, rfl, q⟩
  · next r' =>
    obtain ⟨p, rfl, q⟩ := sound_prim ih (left := [.target]) Always.targetExpr h
    exact ⟨.target :: p, rfl, q⟩
  · next r' =>
    obtain ⟨p, rfl, q⟩ := ih _ _ _ h
    exact ⟨.tok .num :: p, rfl, q [.tok .num] (Always.ofTok .num)⟩
  · next r' =>
    obtain ⟨p, rfl, q⟩ := sound_prim ih (left := [.tok .str]) (Always.ofTok .str) h
    exact ⟨.tok .str :: p, rfl, q⟩
  · next w r' =>
    split at h
    · next hw =>
      subst hw
      obtain ⟨r1, h1, h2⟩ := Option.bind_eq_some_iff.1 h
      obtain ⟨p1, rfl, q1⟩ := ih _ _ _ h1
      obtain ⟨p2, rfl, q2⟩ := ih _ _ _ h2
      refine ⟨.tok (.word py"not") :: (p1 ++ p2), by simp, ?_⟩
      exact q2 (.tok (.word py"not") :: p1) (.cons fun ts ht => .not (q1 ts ht))
    · split at h
      · next hv =>
        obtain ⟨p, rfl, q⟩ := sound_prim ih (left := [.tok (.word w)]) (Always.ofTok (.val hv)) h
        exact ⟨.tok (.word w) :: p, rfl, q⟩
      · simp at h
  · next s r' =>
    split at h
    · next hs =>
      subst hs
      obtain ⟨r1, h1, h2⟩ := Option.bind_eq_some_iff.1 h
      obtain ⟨p1, rfl, q1⟩ := ih _ _ _ h1
      obtain ⟨p2, rfl, q2⟩ := ih _ _ _ h2
      refine ⟨.tok (.op py"-") :: (p1 ++ p2), by simp, ?_⟩
      exact q2 (.tok (.op py"-") :: p1) (.cons fun ts ht => .neg (q1 ts ht))
    · split at h
      · next hs =>
        subst hs
        obtain ⟨r1, h1, h2⟩ := Option.bind_eq_some_iff.1 h
        obtain ⟨p1, rfl, b, rfl, q1⟩ := ih _ _ _ h1
        obtain ⟨p2, rfl, q2⟩ := sound_prim ih (left := .tok (.op py"(") :: (b ++ [.tok (.op py")")]))
          (.cons fun ts ht => by
            obtain ⟨u, v, rfl, hu, hv⟩ := Inst.append_iff.1 ht
            rw [hv.one]; exact .paren (q1 u hu)) h2
        exact ⟨_, by simp, q2⟩
      · split at h
        · next hs =>
          subst hs
          obtain ⟨r1, h1, h2⟩ := Option.bind_eq_some_iff.1 h
          obtain ⟨p1, rfl, q1⟩ := ih _ _ _ h1
          obtain ⟨p2, rfl, q2⟩ := sound_prim ih (left := .tok (.op py"[") :: p1) q1 h2
          exact ⟨.tok (.op py"[") :: (p1 ++ p2), by simp, q2⟩
        · simp at h
  · simp at h

theorem sound_loop {f : Nat} (ih : Sound f) (l n : Nat) (as r : List ATok) (h : parse (f + 1) (.loop l n) as = some r) :
    ∃ pre, as = pre ++ r ∧ Post (.loop l n) pre := by
  have stop : ∀ {r}, (if Nat.ble n l = true then some as else none) = some r → ∃ pre, as = pre ++ r ∧ Post (.loop l n) pre := by
    intro r h
    split at h
    · next hb =>
      simp only [Option.some.injEq] at h
      subst h
      exact ⟨[], rfl, fun left hl => by rw [List.append_nil]; exact hl.weaken (Nat.le_of_ble_eq_true hb)⟩
    · simp at h
  simp only [parse] at h
  split at h
  · next hc =>
    simp only [Bool.and_eq_true] at hc
    obtain ⟨r1, h1, h2⟩ := Option.bind_eq_some_iff.1 h
    obtain ⟨r0, h0, h1⟩ := Option.bind_eq_some_iff.1 h1
    have := eat_some h0
    subst this
    obtain ⟨p1, rfl, q1⟩ := ih _ _ _ h1
    obtain ⟨p2, rfl, q2⟩ := ih _ _ _ h2
    refine ⟨.tok (.op py"**") :: (p1 ++ p2), by simp, fun left hl => ?_⟩
    have := q2 (left ++ .tok (.op py"**") :: p1) (.app fun us vs hu hv => by
      obtain ⟨vs, rfl, hv⟩ := hv
      exact .pow ((hl us hu).weaken (Nat.le_of_ble_eq_true hc.2)) (q1 vs hv))
    simpa using this
  · split at h
    · next hc =>
      simp only [Bool.and_eq_true] at hc
      obtain ⟨r1, h1, h2⟩ := Option.bind_eq_some_iff.1 h
      obtain ⟨r0, h0, h3⟩ := Option.bind_eq_some_iff.1 h1
      obtain ⟨rr, hr, h0⟩ := Option.bind_eq_some_iff.1 h0
      have := eat_some hr
      subst this
      obtain ⟨p1, rfl, q1⟩ := ih _ _ _ h0
      have := eat_some h3
      subst this
      obtain ⟨p2, rfl, q2⟩ := ih _ _ _ h2
      have hn : n = 0 := Nat.eq_of_beq_eq_true hc.1.2
      subst hn
      refine ⟨.tok (.word py"if") :: (p1 ++ .tok (.word py"else") :: p2), by simp, fun left hl => .app fun us vs hu hv => ?_⟩
      obtain ⟨vs, rfl, hv⟩ := hv
      obtain ⟨v1, v2, rfl, hv1, hv2⟩ := Inst.append_iff.1 hv
      obtain ⟨v2, rfl, hv2⟩ := hv2
      exact .cond ((hl us hu).weaken (Nat.le_of_ble_eq_true hc.2)) (q1 _ hv1) (q2 _ hv2)
    · split at h
      · next o m r' hb =>
        split at h
        · next hc =>
          simp only [Bool.and_eq_true] at hc
          obtain ⟨ho, rfl⟩ := binOp_some hb
          obtain ⟨r1, h1, h2⟩ := Option.bind_eq_some_iff.1 h
          obtain ⟨p1, rfl, q1⟩ := ih _ _ _ h1
          obtain ⟨p2, rfl, q2⟩ := ih _ _ _ h2
          refine ⟨o.map .tok ++ (p1 ++ p2), by simp, fun left hl => ?_⟩
          have := q2 (left ++ (o.map .tok ++ p1)) (.app fun us vs hu hv => by
            obtain ⟨v1, v2, rfl, hv1, hv2⟩ := Inst.append_iff.1 hv
            rw [hv1.toks]
            exact .bin ho ((hl us hu).weaken (Nat.le_of_ble_eq_true hc.2)) (q1 _ hv2))
          simpa using this
        · exact stop h
      · exact stop h

theorem sound_trail {f : Nat} (ih : Sound f) (as r : List ATok) (h : parse (f + 1) .trail as = some r) :
    ∃ pre, as = pre ++ r ∧ Post .trail pre := by
  have stop : ∀ {as r : List ATok}, some as = some r → ∃ pre, as = pre ++ r ∧ Post .trail pre := by
    intro as r h
    simp only [Option.some.injEq] at h
    subst h
    exact ⟨[], rfl, fun left hl => by rw [List.append_nil]; exact hl⟩
  simp only [parse] at h
  split at h
  · next s r' =>
    split at h
    · next hs =>
      subst hs
      obtain ⟨r1, h1, h2⟩ := Option.bind_eq_some_iff.1 h
      obtain ⟨_, rfl, b, rfl, q1⟩ := ih _ _ _ h1
      obtain ⟨p2, rfl, q2⟩ := ih _ _ _ h2
      refine ⟨.tok (.op py"(") :: (b ++ [.tok (.op py")")] ++ p2), by simp, fun left hl => ?_⟩
      have := q2 (left ++ .tok (.op py"(") :: (b ++ [.tok (.op py")")])) (.app fun us vs hu hv => by
        obtain ⟨vs, rfl, hv⟩ := hv
        obtain ⟨v1, v2, rfl, hv1, hv2⟩ := Inst.append_iff.1 hv
        rw [hv2.one]
        exact .call (hl us hu) (q1 _ hv1))
      simpa using this
    · split at h
      · next hs =>
        subst hs
        obtain ⟨r1, h1, h2⟩ := Option.bind_eq_some_iff.1 h
        obtain ⟨_, rfl, b, rfl, q1⟩ := ih _ _ _ h1
        obtain ⟨p2, rfl, q2⟩ := ih _ _ _ h2
        refine ⟨.tok (.op py"[") :: (b ++ [.tok (.op py"]")] ++ p2), by simp, fun left hl => ?_⟩
        have := q2 (left ++ .tok (.op py"[") :: (b ++ [.tok (.op py"]")])) (.app fun us vs hu hv => by
          obtain ⟨vs, rfl, hv⟩ := hv
          obtain ⟨v1, v2, rfl, hv1, hv2⟩ := Inst.append_iff.1 hv
          rw [hv2.one]
          exact .sub (hl us hu) (q1 _ hv1))
        simpa using this
      · split at h
        · next hs =>
          subst hs
          split at h
          · next w r'' =>
            split at h
            · next hw =>
              obtain ⟨p, rfl, q⟩ := ih _ _ _ h
              refine ⟨.tok (.op py".") :: .tok (.word w) :: p, rfl, fun left hl => ?_⟩
              have := q (left ++ [.tok (.op py"."), .tok (.word w)]) (.app fun us vs hu hv => by
                obtain ⟨vs, rfl, hv⟩ := hv
                rw [hv.one]
                exact .attr (hl us hu) hw)
              simpa using this
            · simp at h
          · simp at h
        · exact stop h
  · exact stop h

theorem Inst.snoc {as : List ATok} {t : Tok} {ts : List Tok} (h : Inst (as ++ [.tok t]) ts) : ∃ us, ts = us ++ [t] ∧ Inst as us := by
  obtain ⟨u, v, rfl, hu, hv⟩ := Inst.append_iff.1 h
  exact ⟨u, by rw [hv.one], hu⟩

theorem Inst.mid {a b : List ATok} {t : Tok} {ts : List Tok} (h : Inst (a ++ .tok t :: b) ts) :
    ∃ us vs, ts = us ++ t :: vs ∧ Inst a us ∧ Inst b vs := by
  obtain ⟨u, v, rfl, hu, hv⟩ := Inst.append_iff.1 h
  obtain ⟨v, rfl, hv⟩ := hv
  exact ⟨u, v, rfl, hu, hv⟩

/-- One or several expressions up to a closing token. -/
theorem sound_sep {f : Nat} (ih : Sound f) {w : What} {c : Cat} {cl : Tok} {n : Nat} {as r : List ATok}
    (hw : ∀ pre, Post w pre ↔ ∃ b, pre = b ++ [.tok cl] ∧ Always c b)
    (one : ∀ a, G (.expr n) a → G c a) (more : ∀ a b, G (.expr n) a → G c b → G c (a ++ .op py"," :: b))
    (h : ((parse f (.e n) as).bind fun r =>
      if headIs (.op py",") r = true then (eat (.op py",") r).bind (parse f w) else eat cl r) = some r) :
    ∃ pre, as = pre ++ r ∧ ∃ b, pre = b ++ [.tok cl] ∧ Always c b := by
  obtain ⟨r1, h1, h2⟩ := Option.bind_eq_some_iff.1 h
  obtain ⟨p1, rfl, q1⟩ := ih _ _ _ h1
  split at h2
  · obtain ⟨r2, h2, h3⟩ := Option.bind_eq_some_iff.1 h2
    have := eat_some h2
    subst this
    obtain ⟨p2, rfl, q2⟩ := ih _ _ _ h3
    obtain ⟨b, rfl, q3⟩ := (hw _).1 q2
    refine ⟨p1 ++ .tok (.op py",") :: (b ++ [.tok cl]), by simp, p1 ++ .tok (.op py",") :: b, by simp, fun ts ht => ?_⟩
    obtain ⟨us, vs, rfl, hu, hv⟩ := ht.mid
    exact more _ _ (q1 _ hu) (q3 _ hv)
  · have := eat_some h2
    subst this
    exact ⟨p1 ++ [.tok cl], by simp, p1, rfl, fun ts ht => one _ (q1 _ ht)⟩

theorem Always.kws : Always .kwargs [.kws] := by
  rintro _ ⟨a, us, rfl, ha, hu⟩
  rw [show us = [] from hu, List.append_nil]; exact ha

theorem Always.nil {c : Cat} (h : G c []) : Always c [] := by
  intro ts ht; rw [show ts = [] from ht]; exact h

theorem sound_kwargs {f : Nat} (ih : Sound f) (as r : List ATok) (h : parse (f + 1) .kwargs as = some r) :
    ∃ pre, as = pre ++ r ∧ Post .kwargs pre := by
  simp only [parse] at h
  split at h
  · next w s r' =>
    split at h
    · next hs =>
      obtain ⟨rfl, hw⟩ := hs
      obtain ⟨r1, h1, h2⟩ := Option.bind_eq_some_iff.1 h
      obtain ⟨p1, rfl, q1⟩ := ih _ _ _ h1
      split at h2
      · obtain ⟨r2, h2, h3⟩ := Option.bind_eq_some_iff.1 h2
        have := eat_some h2
        subst this
        obtain ⟨_, rfl, b, rfl, q2⟩ := ih _ _ _ h3
        refine ⟨.tok (.word w) :: .tok (.op py"=") :: (p1 ++ .tok (.op py",") :: (b ++ [.tok (.op py")")])), by simp,
          .tok (.word w) :: .tok (.op py"=") :: (p1 ++ .tok (.op py",") :: b), by simp, fun ts ht => ?_⟩
        obtain ⟨_, rfl, _, rfl, ht⟩ := ht
        obtain ⟨us, vs, rfl, hu, hv⟩ := ht.mid
        exact .moreKws hw (q1 _ hu) (q2 _ hv)
      · have := eat_some h2
        subst this
        refine ⟨.tok (.word w) :: .tok (.op py"=") :: (p1 ++ [.tok (.op py")")]), by simp,
          .tok (.word w) :: .tok (.op py"=") :: p1, by simp, fun ts ht => ?_⟩
        obtain ⟨_, rfl, _, rfl, ht⟩ := ht
        exact .oneKw hw (q1 _ ht)
    · simp at h
  · next r' =>
    have := eat_some h
    subst this
    exact ⟨[.kws, .tok (.op py")")], rfl, [.kws], rfl, Always.kws⟩
  · have := eat_some h
    subst this
    exact ⟨[.tok (.op py")")], rfl, [], rfl, Always.nil .noKw⟩

theorem sound_args {f : Nat} (ih : Sound f) (as r : List ATok) (h : parse (f + 1) .args as = some r) :
    ∃ pre, as = pre ++ r ∧ Post .args pre := by
  simp only [parse] at h
  split at h
  · next r' =>
    have := eat_some h
    subst this
    exact ⟨[.kws, .tok (.op py")")], rfl, [.kws], rfl, fun ts ht => .onlyKws (Always.kws ts ht)⟩
  · split at h
    · next s r' hs =>
      simp only [Option.some.injEq] at h
      subst h; subst hs
      exact ⟨[.tok (.op py")")], rfl, [], rfl, Always.nil (.onlyKws .noKw)⟩
    · exact sound_sep ih (fun _ => Iff.rfl) (fun _ => .oneArg) (fun _ _ => .moreArgs) h
  · split at h
    · obtain ⟨_, rfl2, b, rfl, q⟩ := ih _ _ _ h
      exact ⟨_, rfl2, b, rfl, fun ts ht => .onlyKws (q ts ht)⟩
    · exact sound_sep ih (fun _ => Iff.rfl) (fun _ => .oneArg) (fun _ _ => .moreArgs) h
  · exact sound_sep ih (fun _ => Iff.rfl) (fun _ => .oneArg) (fun _ _ => .moreArgs) h

theorem sound_items {f : Nat} (ih : Sound f) (cl : Str) (as r : List ATok) (h : parse (f + 1) (.items cl) as = some r) :
    ∃ pre, as = pre ++ r ∧ Post (.items cl) pre := by
  simp only [parse] at h
  split at h
  · have := eat_some h
    subst this
    exact ⟨[.tok (.op cl)], rfl, [], rfl, Always.nil .noItem⟩
  · exact sound_sep ih (fun _ => Iff.rfl) (fun _ => .oneItem) (fun _ _ => .moreItems) h

theorem sound_list {f : Nat} (ih : Sound f) (as r : List ATok) (h : parse (f + 1) .list as = some r) :
    ∃ pre, as = pre ++ r ∧ Post .list pre := by
  simp only [parse] at h
  split at h
  · next a w b r' he =>
    split at h
    · next hs =>
      obtain ⟨rfl, rfl, hw⟩ := hs
      obtain ⟨p1, rfl, q1⟩ := ih _ _ _ he
      obtain ⟨r1, h1, h2⟩ := Option.bind_eq_some_iff.1 h
      obtain ⟨p2, rfl, q2⟩ := ih _ _ _ h1
      have := eat_some h2
      subst this
      refine ⟨p1 ++ .tok (.word py"for") :: .tok (.word w) :: .tok (.word py"in") :: (p2 ++ [.tok (.op py"]")]), by simp,
        .cons fun ts ht => ?_⟩
      obtain ⟨us, vs, rfl, hu, hv⟩ := ht.mid
      obtain ⟨_, rfl, _, rfl, hv⟩ := hv
      obtain ⟨_, rfl, hv'⟩ := hv.snoc
      exact .each (q1 _ hu) hw (q2 _ hv')
    · simp at h
  · obtain ⟨_, rfl, b, rfl, q⟩ := ih _ _ _ h
    refine ⟨b ++ [.tok (.op py"]")], rfl, .cons fun ts ht => ?_⟩
    obtain ⟨_, rfl, ht'⟩ := ht.snoc
    exact .list (q _ ht')

theorem sound_slices {f : Nat} (ih : Sound f) (as r : List ATok) (h : parse (f + 1) .slices as = some r) :
    ∃ pre, as = pre ++ r ∧ Post .slices pre := by
  have rest : ∀ {as r : List ATok}, (if headIs (.op py"]") as = true then eat (.op py"]") as
      else (parse f (.e 0) as).bind (eat (.op py"]"))) = some r → ∃ b, as = b ++ .tok (.op py"]") :: r ∧ Always .opt b := by
    intro as r h
    split at h
    · have := eat_some h
      subst this
      exact ⟨[], rfl, Always.nil .none⟩
    · obtain ⟨r1, h1, h2⟩ := Option.bind_eq_some_iff.1 h
      obtain ⟨p1, rfl, q1⟩ := ih _ _ _ h1
      have := eat_some h2
      subst this
      exact ⟨p1, rfl, fun ts ht => .some (q1 _ ht)⟩
  simp only [parse] at h
  split at h
  · obtain ⟨r1, h1, h2⟩ := Option.bind_eq_some_iff.1 h
    have := eat_some h1
    subst this
    obtain ⟨b, rfl, q⟩ := rest h2
    exact ⟨.tok (.op py":") :: (b ++ [.tok (.op py"]")]), by simp, .tok (.op py":") :: b, by simp,
      .cons fun ts ht => .oneSlice (.range (a := []) .none (q _ ht))⟩
  · obtain ⟨r1, h1, h2⟩ := Option.bind_eq_some_iff.1 h
    obtain ⟨p1, rfl, q1⟩ := ih _ _ _ h1
    split at h2
    · obtain ⟨r2, h2, h3⟩ := Option.bind_eq_some_iff.1 h2
      have := eat_some h2
      subst this
      obtain ⟨b, rfl, q⟩ := rest h3
      refine ⟨p1 ++ .tok (.op py":") :: (b ++ [.tok (.op py"]")]), by simp, p1 ++ .tok (.op py":") :: b, by simp, fun ts ht => ?_⟩
      obtain ⟨us, vs, rfl, hu, hv⟩ := ht.mid
      exact .oneSlice (.range (.some (q1 _ hu)) (q _ hv))
    · have := eat_some h2
      subst this
      exact ⟨p1 ++ [.tok (.op py"]")], by simp, p1, rfl, fun ts ht => .oneSlice (.index (q1 _ ht))⟩

theorem sound_tail' {f : Nat} (ih : Sound f) {c : Cat} (one : ∀ a, G (.expr 0) a → G c a)
    (more : ∀ a b, G (.expr 0) a → G .items b → G c (a ++ .op py"," :: b)) {as r : List ATok}
    (h : ((parse f (.e 0) as).bind fun r =>
      if headIs (.op py",") r = true then (eat (.op py",") r).bind (parse f .tail) else some r) = some r) :
    ∃ pre, as = pre ++ r ∧ Always c pre := by
  obtain ⟨r1, h1, h2⟩ := Option.bind_eq_some_iff.1 h
  obtain ⟨p1, rfl, q1⟩ := ih _ _ _ h1
  split at h2
  · obtain ⟨r2, h2, h3⟩ := Option.bind_eq_some_iff.1 h2
    have := eat_some h2
    subst this
    obtain ⟨p2, rfl, q2⟩ := ih _ _ _ h3
    refine ⟨p1 ++ .tok (.op py",") :: p2, by simp, fun ts ht => ?_⟩
    obtain ⟨us, vs, rfl, hu, hv⟩ := ht.mid
    exact more _ _ (q1 _ hu) (q2 _ hv)
  · simp only [Option.some.injEq] at h2
    subst h2
    exact ⟨p1, rfl, fun ts ht => one _ (q1 _ ht)⟩

theorem sound_exprs {f : Nat} (ih : Sound f) (as r : List ATok) (h : parse (f + 1) .exprs as = some r) :
    ∃ pre, as = pre ++ r ∧ Post .exprs pre := by
  simp only [parse] at h
  exact sound_tail' ih (fun _ => .oneExpr) (fun _ _ => .moreExprs) h

theorem sound_tail {f : Nat} (ih : Sound f) (as r : List ATok) (h : parse (f + 1) .tail as = some r) :
    ∃ pre, as = pre ++ r ∧ Post .tail pre := by
  simp only [parse] at h
  split at h
  · simp only [Option.some.injEq] at h
    subst h
    exact ⟨[], rfl, Always.nil .noItem⟩
  · simp only [Option.some.injEq] at h
    subst h
    exact ⟨[], rfl, Always.nil .noItem⟩
  · exact sound_tail' ih (fun _ => .oneItem) (fun _ _ => .moreItems) h

theorem sound_target {f : Nat} (ih : Sound f) (as r : List ATok) (h : parse (f + 1) .target as = some r) :
    ∃ pre, as = pre ++ r ∧ Post .target pre := by
  simp only [parse] at h
  split at h
  · obtain ⟨p, rfl, q⟩ := ih _ _ _ h
    refine ⟨.name :: p, rfl, q [.name] Always.name fun _ => ?_⟩
    rintro _ ⟨w, us, rfl, hw, hu⟩
    rw [show us = [] from hu]; exact .nameTarget hw
  · obtain ⟨p, rfl, q⟩ := ih _ _ _ h
    exact ⟨.target :: p, rfl, q [.target] Always.targetExpr fun _ => Always.target⟩
  · next w r' =>
    split at h
    · next hw =>
      obtain ⟨p, rfl, q⟩ := ih _ _ _ h
      exact ⟨.tok (.word w) :: p, rfl, q [.tok (.word w)] (Always.ofTok (.val (value_of_name hw)))
        fun _ => Always.ofTok (.nameTarget hw)⟩
    · simp at h
  · next m r' =>
    split at h
    · next hm =>
      obtain ⟨p, rfl, q⟩ := ih _ _ _ h
      exact ⟨.hole m :: p, rfl, q [.hole m] ((Always.hole m).weaken (Nat.le_of_ble_eq_true hm)) (by simp)⟩
    · simp at h
  · simp at h

theorem sound_targetTrail {f : Nat} (ih : Sound f) (ok : Bool) (as r : List ATok)
    (h : parse (f + 1) (.targetTrail ok) as = some r) : ∃ pre, as = pre ++ r ∧ Post (.targetTrail ok) pre := by
  have stop : ∀ {as r : List ATok}, (if ok = true then some as else none) = some r →
      ∃ pre, as = pre ++ r ∧ Post (.targetTrail ok) pre := by
    intro as r h
    split at h
    · next ho =>
      simp only [Option.some.injEq] at h
      subst h
      exact ⟨[], rfl, fun left _ hl => by rw [List.append_nil]; exact hl ho⟩
    · simp at h
  simp only [parse] at h
  split at h
  · next s r' =>
    split at h
    · next hs =>
      subst hs
      obtain ⟨r1, h1, h2⟩ := Option.bind_eq_some_iff.1 h
      obtain ⟨_, rfl, b, rfl, q1⟩ := ih _ _ _ h1
      obtain ⟨p2, rfl, q2⟩ := ih _ _ _ h2
      refine ⟨.tok (.op py"(") :: (b ++ [.tok (.op py")")] ++ p2), by simp, fun left hl _ => ?_⟩
      have := q2 (left ++ .tok (.op py"(") :: (b ++ [.tok (.op py")")])) (.app fun us vs hu hv => by
        obtain ⟨vs, rfl, hv⟩ := hv
        obtain ⟨_, rfl, hv'⟩ := hv.snoc
        exact .call (hl us hu) (q1 _ hv')) (by simp)
      simpa using this
    · split at h
      · next hs =>
        subst hs
        obtain ⟨r1, h1, h2⟩ := Option.bind_eq_some_iff.1 h
        obtain ⟨_, rfl, b, rfl, q1⟩ := ih _ _ _ h1
        obtain ⟨p2, rfl, q2⟩ := ih _ _ _ h2
        refine ⟨.tok (.op py"[") :: (b ++ [.tok (.op py"]")] ++ p2), by simp, fun left hl _ => ?_⟩
        have := q2 (left ++ .tok (.op py"[") :: (b ++ [.tok (.op py"]")])) (.app fun us vs hu hv => by
          obtain ⟨vs, rfl, hv⟩ := hv
          obtain ⟨_, rfl, hv'⟩ := hv.snoc
          exact .sub (hl us hu) (q1 _ hv')) (fun _ => .app fun us vs hu hv => by
          obtain ⟨vs, rfl, hv⟩ := hv
          obtain ⟨_, rfl, hv'⟩ := hv.snoc
          exact .subTarget (hl us hu) (q1 _ hv'))
        simpa using this
      · split at h
        · next hs =>
          subst hs
          split at h
          · next w r'' =>
            split at h
            · next hw =>
              obtain ⟨p, rfl, q⟩ := ih _ _ _ h
              refine ⟨.tok (.op py".") :: .tok (.word w) :: p, rfl, fun left hl _ => ?_⟩
              have := q (left ++ [.tok (.op py"."), .tok (.word w)]) (.app fun us vs hu hv => by
                obtain ⟨vs, rfl, hv⟩ := hv
                rw [hv.one]
                exact .attr (hl us hu) hw) (fun _ => .app fun us vs hu hv => by
                obtain ⟨vs, rfl, hv⟩ := hv
                rw [hv.one]
                exact .attrTarget (hl us hu) hw)
              simpa using this
            · simp at h
          · simp at h
        · exact stop h
  · exact stop h

theorem sound_targets {f : Nat} (ih : Sound f) (as r : List ATok) (h : parse (f + 1) .targets as = some r) :
    ∃ pre, as = pre ++ r ∧ Post .targets pre := by
  simp only [parse] at h
  obtain ⟨r1, h1, h2⟩ := Option.bind_eq_some_iff.1 h
  obtain ⟨p1, rfl, q1⟩ := ih _ _ _ h1
  split at h2
  · obtain ⟨r2, h2, h3⟩ := Option.bind_eq_some_iff.1 h2
    have := eat_some h2
    subst this
    obtain ⟨p2, rfl, q2⟩ := ih _ _ _ h3
    refine ⟨p1 ++ .tok (.op py",") :: p2, by simp, fun ts ht => ?_⟩
    obtain ⟨us, vs, rfl, hu, hv⟩ := ht.mid
    exact .moreTargets (q1 _ hu) (q2 _ hv)
  · simp only [Option.some.injEq] at h2
    subst h2
    exact ⟨p1, rfl, fun ts ht => .oneTarget (q1 _ ht)⟩

theorem sound_path {f : Nat} (ih : Sound f) (as r : List ATok) (h : parse (f + 1) .path as = some r) :
    ∃ pre, as = pre ++ r ∧ Post .path pre := by
  simp only [parse] at h
  split at h
  · next w r' =>
    split at h
    · next hw =>
      split at h
      · obtain ⟨r2, h2, h3⟩ := Option.bind_eq_some_iff.1 h
        have := eat_some h2
        subst this
        obtain ⟨p2, rfl, q2⟩ := ih _ _ _ h3
        refine ⟨.tok (.word w) :: .tok (.op py".") :: p2, rfl, .cons fun ts ht => ?_⟩
        obtain ⟨_, rfl, ht⟩ := ht
        exact .morePath hw (q2 _ ht)
      · simp only [Option.some.injEq] at h
        subst h
        exact ⟨[.tok (.word w)], rfl, Always.ofTok (.onePath hw)⟩
    · simp at h
  · simp at h

theorem sound_simple {f : Nat} (ih : Sound f) (as r : List ATok) (h : parse (f + 1) .simple as = some r) :
    ∃ pre, as = pre ++ r ∧ Post .simple pre := by
  have val : ∀ {r}, parse f .exprs as = some r → ∃ pre, as = pre ++ r ∧ Post .simple pre := by
    intro r h
    obtain ⟨p, rfl2, q⟩ := ih _ _ _ h
    exact ⟨p, rfl2, fun ts ht => .value (q _ ht)⟩
  simp only [parse] at h
  split at h
  · obtain ⟨r1, h1, h2⟩ := Option.bind_eq_some_iff.1 h
    obtain ⟨r0, h0, h1⟩ := Option.bind_eq_some_iff.1 h1
    have := eat_some h0
    subst this
    obtain ⟨p1, rfl, q1⟩ := ih _ _ _ h1
    have plain : ∀ {r}, some r1 = some r → ∃ pre, ATok.tok (.word py"import") :: (p1 ++ r1) = pre ++ r ∧ Post .simple pre := by
      intro r h
      simp only [Option.some.injEq] at h
      subst h
      exact ⟨.tok (.word py"import") :: p1, rfl, .cons fun ts ht => .imports (q1 _ ht)⟩
    split at h2
    · next a w r' _ _ =>
      split at h2
      · next hs =>
        obtain ⟨rfl, hw⟩ := hs
        simp only [Option.some.injEq] at h2
        subst h2
        refine ⟨.tok (.word py"import") :: (p1 ++ [.tok (.word py"as"), .tok (.word w)]), by simp, .cons fun ts ht => ?_⟩
        obtain ⟨us, vs, rfl, hu, hv⟩ := ht.mid
        rw [hv.one]
        exact .importAs (q1 _ hu) hw
      · exact plain h2
    · exact plain h2
  · split at h
    · obtain ⟨r1, h1, h2⟩ := Option.bind_eq_some_iff.1 h
      obtain ⟨r0, h0, h1⟩ := Option.bind_eq_some_iff.1 h1
      have := eat_some h0
      subst this
      obtain ⟨p1, rfl, q1⟩ := ih _ _ _ h1
      split at h2
      · obtain ⟨r2, h2, h3⟩ := Option.bind_eq_some_iff.1 h2
        have := eat_some h2
        subst this
        obtain ⟨p2, rfl, q2⟩ := ih _ _ _ h3
        refine ⟨.tok (.word py"assert") :: (p1 ++ .tok (.op py",") :: p2), by simp, .cons fun ts ht => ?_⟩
        obtain ⟨us, vs, rfl, hu, hv⟩ := ht.mid
        exact .checkSay (q1 _ hu) (q2 _ hv)
      · simp only [Option.some.injEq] at h2
        subst h2
        exact ⟨.tok (.word py"assert") :: p1, rfl, .cons fun ts ht => .check (q1 _ ht)⟩
    · split at h
      · next r1 h1 =>
        split at h
        · obtain ⟨p1, rfl, q1⟩ := ih _ _ _ h1
          obtain ⟨r2, h2, h3⟩ := Option.bind_eq_some_iff.1 h
          have := eat_some h2
          subst this
          obtain ⟨p2, rfl, q2⟩ := ih _ _ _ h3
          refine ⟨p1 ++ .tok (.op py"=") :: p2, by simp, fun ts ht => ?_⟩
          obtain ⟨us, vs, rfl, hu, hv⟩ := ht.mid
          exact .assign (q1 _ hu) (q2 _ hv)
        · exact val h
      · exact val h

theorem sound_code {f : Nat} (ih : Sound f) (as r : List ATok) (h : parse (f + 1) .code as = some r) :
    ∃ pre, as = pre ++ r ∧ Post .code pre := by
  simp only [parse] at h
  obtain ⟨r0, h0, hc⟩ := Option.bind_eq_some_iff.1 h
  have := eat_some h0
  subst this
  clear h
  have block : ∀ {hd : List ATok} {h : Option (List ATok)} {r : List ATok}, (∀ r1, h = some r1 → ∃ pre, r0 = hd ++ (pre ++ r1) ∧
      Always .header (hd ++ pre)) → (h.bind fun r =>
          match r with
          | .tok (.op s) :: .tok (.nl k) :: r =>
            if s = py":" ∧ 0 < k then (parse f .simple r).bind (parse f .code) else none
          | _ => none) = some r → ∃ pre, ATok.tok (.nl 0) :: r0 = pre ++ r ∧ Post .code pre := by
    intro hd h r hh h1
    obtain ⟨r1, h1, h2⟩ := Option.bind_eq_some_iff.1 h1
    obtain ⟨p1, rfl, q1⟩ := hh _ h1
    split at h2
    · next s k r' =>
      split at h2
      · next hs =>
        obtain ⟨rfl, hk⟩ := hs
        obtain ⟨r2, h2, h3⟩ := Option.bind_eq_some_iff.1 h2
        obtain ⟨p2, rfl, q2⟩ := ih _ _ _ h2
        obtain ⟨p3, rfl, q3⟩ := ih _ _ _ h3
        refine ⟨.tok (.nl 0) :: ((hd ++ p1) ++ .tok (.op py":") :: .tok (.nl k) :: (p2 ++ p3)), by simp, .cons fun ts ht => ?_⟩
        obtain ⟨us, vs, rfl, hu, hv⟩ := ht.mid
        obtain ⟨_, rfl, hv⟩ := hv
        obtain ⟨u, v, rfl, hu2, hv2⟩ := Inst.append_iff.1 hv
        exact .block (q1 _ hu) hk (q2 _ hu2) (q3 _ hv2)
      · simp at h2
    · simp at h2
  have line : ∀ {r}, (parse f .simple r0).bind (parse f .code) = some r →
      ∃ pre, ATok.tok (.nl 0) :: r0 = pre ++ r ∧ Post .code pre := by
    intro r h
    obtain ⟨r2, h2, h3⟩ := Option.bind_eq_some_iff.1 h
    obtain ⟨p2, rfl, q2⟩ := ih _ _ _ h2
    obtain ⟨p3, rfl, q3⟩ := ih _ _ _ h3
    refine ⟨.tok (.nl 0) :: (p2 ++ p3), by simp, .cons fun ts ht => ?_⟩
    obtain ⟨u, v, rfl, hu2, hv2⟩ := Inst.append_iff.1 ht
    exact .line (q2 _ hu2) (q3 _ hv2)
  split at hc
  · next a w b r' =>
    have h := hc; clear hc
    split at h
    · next hs =>
      obtain ⟨rfl, hw, rfl⟩ := hs
      refine block (hd := [.tok (.word py"for"), .tok (.word w), .tok (.word py"in")]) (fun r1 h1 => ?_) h
      obtain ⟨p, rfl, q⟩ := ih _ _ _ h1
      refine ⟨p, rfl, .cons fun ts ht => ?_⟩
      obtain ⟨_, rfl, _, rfl, ht⟩ := ht
      exact .loop hw (q _ ht)
    · split at h
      · next hs =>
        subst hs
        refine block (hd := [.tok (.word py"if")]) (fun r1 h1 => ?_) h
        obtain ⟨p, hp, q⟩ := ih _ _ _ h1
        exact ⟨p, by rw [hp]; rfl, .cons fun ts ht => .when (q _ ht)⟩
      · exact line h
  · have h := hc; clear hc
    split at h
    · refine block (hd := [.tok (.word py"if")]) (fun r1 h1 => ?_) h
      obtain ⟨r2, h2, h3⟩ := Option.bind_eq_some_iff.1 h1
      have := eat_some h2
      obtain ⟨p, rfl, q⟩ := ih _ _ _ h3
      exact ⟨p, by rw [this]; rfl, .cons fun ts ht => .when (q _ ht)⟩
    · split at h
      · next he =>
        simp only [Option.some.injEq] at h
        subst h
        obtain ⟨p, hp, q⟩ := ih _ _ _ he
        rw [List.append_nil] at hp
        subst hp
        exact ⟨.tok (.nl 0) :: r0, by simp, .cons fun ts ht => .last (q _ ht)⟩
      · next k he =>
        simp only [Option.some.injEq] at h
        subst h
        obtain ⟨p, hp, q⟩ := ih _ _ _ he
        subst hp
        refine ⟨.tok (.nl 0) :: (p ++ [.tok (.nl k)]), by simp, .cons fun ts ht => ?_⟩
        obtain ⟨_, rfl, ht'⟩ := ht.snoc
        exact .lastLine (q _ ht')
      · exact line h

/-- What `parse` reads has the form it was asked for. -/
theorem parse_sound (f : Nat) : Sound f := by
  induction f with
  | zero => intro w as r h; simp [parse] at h
  | succ f ih =>
    intro w as r h
    cases w with
    | e n => exact sound_e ih n as r h
    | loop l n => exact sound_loop ih l n as r h
    | trail => exact sound_trail ih as r h
    | args => exact sound_args ih as r h
    | kwargs => exact sound_kwargs ih as r h
    | items cl => exact sound_items ih cl as r h
    | list => exact sound_list ih as r h
    | slices => exact sound_slices ih as r h
    | exprs => exact sound_exprs ih as r h
    | tail => exact sound_tail ih as r h
    | target => exact sound_target ih as r h
    | targetTrail ok => exact sound_targetTrail ih ok as r h
    | targets => exact sound_targets ih as r h
    | path => exact sound_path ih as r h
    | simple => exact sound_simple ih as r h
    | code => exact sound_code ih as r h

end Verif.Spec.Python
