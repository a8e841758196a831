import Verif.Lemmas.PythonText

/-! # What cannot be parsed -/

namespace Verif.Spec.Python
open Verif

/-- An operator occurs outside of the brackets; `d` brackets are open. -/
def top (s : Str) : Nat → List Tok → Bool
  | _, [] => false
  | d, t :: ts => (d == 0 && t == .op s) || top s (depth d t) ts

theorem top_append (s : Str) (d : Nat) (a b : List Tok) : top s d (a ++ b) = (top s d a || top s (depthAfter d a) b) := by
  induction a generalizing d with
  | nil => simp [top, depthAfter]
  | cons t a ih => simp [top, depthAfter, ih, Bool.or_assoc]

theorem depthAfter_append (d : Nat) (a b : List Tok) : depthAfter d (a ++ b) = depthAfter (depthAfter d a) b := by
  simp [depthAfter]

theorem depthAfter_cons (d : Nat) (t : Tok) (a : List Tok) : depthAfter d (t :: a) = depthAfter (depth d t) a := rfl

theorem depthAfter_nil (d : Nat) : depthAfter d [] = d := rfl

/-- What follows after a token at this depth. -/
theorem walk_cons {d e : Nat} {t : Tok} {ts : List Tok} (h : walk d (t :: ts) = some e) : walk (depth d t) ts = some e := by
  unfold walk at h
  unfold depth
  split at h
  · simp only
    split at h
    · next h1 => rw [if_pos h1]; exact h
    · next h1 =>
      rw [if_neg h1]
      split at h
      · next h2 =>
        rw [if_pos h2]
        split at h
        · simp at h
        · exact h
      · next h2 => rw [if_neg h2]; exact h
  · next hn => cases t <;> first | exact h | exact absurd rfl (hn _)

theorem walk_depth {d e : Nat} {ts : List Tok} (h : walk d ts = some e) : depthAfter d ts = e := by
  induction ts generalizing d with
  | nil => simpa [walk, depthAfter] using h
  | cons t ts ih => rw [depthAfter_cons]; exact ih (walk_cons h)

theorem walk_pos {d e : Nat} {t : Tok} {ts : List Tok} (h : walk d (t :: ts) = some e) : depth (d + 1) t = depth d t + 1 := by
  unfold walk at h
  unfold depth
  split at h
  · simp only
    split at h
    · next h1 => rw [if_pos h1, if_pos h1]
    · next h1 =>
      rw [if_neg h1, if_neg h1]
      split at h
      · next h2 =>
        rw [if_pos h2, if_pos h2]
        split at h
        · simp at h
        · omega
      · next h2 => rw [if_neg h2, if_neg h2]
  · next hn => cases t <;> first | rfl | exact absurd rfl (hn _)

theorem top_inside {s : Str} {k e : Nat} {ts : List Tok} (h : walk k ts = some e) : top s (k + 1) ts = false := by
  induction ts generalizing k with
  | nil => rfl
  | cons t ts ih =>
    have := ih (walk_cons h)
    simp [top, walk_pos h, this]

theorem binary_no : ∀ p ∈ binary, p.2 < 14 ∧ ∀ t ∈ p.1, t ≠ .op py"=" ∧ t ≠ .op py"," := by decide

theorem depth_lits (d : Nat) : depth d (.op py"(") = d + 1 ∧ depth d (.op py"[") = d + 1 ∧ depth d (.op py"{") = d + 1 ∧
    depth (d + 1) (.op py")") = d ∧ depth (d + 1) (.op py"]") = d ∧ depth (d + 1) (.op py"}") = d ∧
    depth d (.op py".") = d ∧ depth d (.op py",") = d ∧ depth d (.op py":") = d ∧ depth d (.op py"=") = d ∧
    depth d (.op py"*") = d ∧ depth d (.op py"**") = d ∧ depth d (.op py"-") = d ∧ (∀ w, depth d (.word w) = d) ∧
    depth d .num = d ∧ depth d .str = d ∧ ∀ n, depth d (.nl n) = d := by
  refine ⟨rfl, rfl, rfl, ?_, ?_, ?_, rfl, rfl, rfl, rfl, rfl, rfl, rfl, fun _ => rfl, rfl, rfl, fun _ => rfl⟩ <;> simp [depth, opening, closing]

theorem binary_top {s : Str} (hs : s = py"=" ∨ s = py",") {p : List Tok × Nat} (hp : p ∈ binary) (d : Nat) : top s d p.1 = false := by
  have h1 := (binary_no p hp).2
  generalize p.1 = ts at h1
  induction ts generalizing d with
  | nil => rfl
  | cons t ts ih =>
    have := h1 t (List.mem_cons_self ..)
    have hne : (t == .op s) = false := by rcases hs with rfl | rfl <;> simp [this]
    simp only [top, hne, Bool.and_false, Bool.false_or]
    exact ih _ fun x hx => h1 x (List.mem_cons_of_mem _ hx)

theorem G.depth {c : Cat} {ts : List Tok} (h : G c ts) (d : Nat) : depthAfter d ts = d := by
  have := walk_depth (walk_shift (k := d) (balanced h))
  simpa using this

theorem G.inside {c : Cat} {ts : List Tok} (h : G c ts) (s : Str) (d : Nat) : top s (d + 1) ts = false := by
  have := top_inside (s := s) (walk_shift (k := d) (balanced h))
  simpa using this

/-- No `=` on the outside. -/
def noAssign : Cat → Bool
  | .kwargs | .args | .simple | .code => false
  | _ => true

/-- No comma on the outside. -/
def noComma : Cat → Bool
  | .expr n => Nat.ble 14 n
  | .target => true
  | _ => false

set_option linter.unusedSimpArgs false in
theorem top_assign {c : Cat} {ts : List Tok} (h : G c ts) : (∀ d, depthAfter d ts = d) ∧ (∀ d, top py"=" (d + 1) ts = false) ∧
    (noAssign c = true → top py"=" 0 ts = false) := by
  induction h with
  | bin ho ha hb iha ihb =>
    refine ⟨(G.bin ho ha hb).depth, (G.bin ho ha hb).inside _, fun _ => ?_⟩
    have h4 := walk_depth ((binary_plain _ ho).1 0)
    simp only [top_append, ha.depth, iha.2.2 rfl, h4, ihb.2.2 rfl, binary_top (.inl rfl) ho, Bool.or_false]
  | up h ih => exact ⟨ih.1, ih.2.1, fun _ => ih.2.2 rfl⟩
  | _ =>
    simp only [noAssign, forall_const, Bool.false_eq_true, false_implies, and_true, reduceCtorEq] at *
    simp [top, top_append, depth_lits, depthAfter_cons, depthAfter_append, depthAfter_nil, *]

set_option linter.unusedSimpArgs false in
theorem top_comma {c : Cat} {ts : List Tok} (h : G c ts) : (∀ d, depthAfter d ts = d) ∧ (∀ d, top py"," (d + 1) ts = false) ∧
    (noComma c = true → top py"," 0 ts = false) := by
  induction h with
  | bin ho ha hb iha ihb =>
    refine ⟨(G.bin ho ha hb).depth, (G.bin ho ha hb).inside _, fun hc => ?_⟩
    have := (binary_no _ ho).1
    simp only [noComma, Nat.ble_eq] at hc
    omega
  | up h ih =>
    refine ⟨ih.1, ih.2.1, fun hc => ih.2.2 ?_⟩
    simp only [noComma, Nat.ble_eq] at hc ⊢
    omega
  | _ =>
    simp only [noComma, Nat.ble_eq, Nat.le_refl, Nat.reduceLeDiff, forall_const, Bool.false_eq_true, false_implies, and_true, reduceCtorEq] at *
    simp [top, top_append, depth_lits, depthAfter_cons, depthAfter_append, depthAfter_nil, *]

/-! ## Targets of assignments -/

/-- Nothing is assigned to a call. `d` brackets are open, `close`: the token in front is a closing parenthesis, `bad`: a comma on this line comes
after one. -/
def scan : Nat → Bool → Bool → List Tok → Bool
  | _, _, _, [] => true
  | d + 1, _, bad, t :: ts => scan (depth (d + 1) t) (t == .op py")") bad ts
  | 0, close, bad, t :: ts =>
    match t with
    | .nl _ => scan 0 false false ts
    | .op s =>
      if s = py"," then scan 0 false (bad || close) ts
      else if s = py"=" then !(bad || close) && scan 0 false false ts
      else scan (depth 0 (.op s)) (s == py")") bad ts
    | _ => scan 0 false bad ts

theorem scan_skip {d e : Nat} {a : List Tok} (hw : walk d a = some e) (hn : NoLine a) (ht : top py"=" d a = false) (close bad : Bool) :
    ∃ close' bad', (∀ r, scan d close bad (a ++ r) = scan e close' bad' r) ∧
      (close' = true → a = [] ∧ close = true ∨ ∃ b, a = b ++ [.op py")"]) ∧ (top py"," d a = false → bad' = bad) := by
  induction a generalizing d close bad with
  | nil =>
    simp only [walk, Option.some.injEq] at hw
    subst hw
    exact ⟨close, bad, fun _ => rfl, fun h => .inl ⟨rfl, h⟩, fun _ => rfl⟩
  | cons t a ih =>
    have hn' : NoLine a := fun n hm => hn n (List.mem_cons_of_mem _ hm)
    have ht' : top py"=" (depth d t) a = false := by
      simp only [top, Bool.or_eq_false_iff] at ht; exact ht.2
    -- one token
    have hone : ∃ c1 b1, (∀ r, scan d close bad (t :: r) = scan (depth d t) c1 b1 r) ∧ (c1 = true → t = .op py")") ∧
        (top py"," d (t :: a) = false → b1 = bad) := by
      cases d with
      | succ d => exact ⟨_, _, fun r => rfl, by simp, fun _ => rfl⟩
      | zero =>
        cases t with
        | nl n => exact absurd (List.mem_cons_self ..) (hn n)
        | op s =>
          by_cases h1 : s = py","
          · subst h1
            refine ⟨false, bad || close, fun r => by simp [scan, depth_lits], by simp, fun h => ?_⟩
            simp [top] at h
          · by_cases h2 : s = py"="
            · subst h2; simp [top] at ht
            · exact ⟨s == py")", bad, fun r => by simp only [scan, h1, h2, if_false], by simp, fun _ => rfl⟩
        | _ => exact ⟨false, bad, fun r => rfl, by simp, fun _ => rfl⟩
    obtain ⟨c1, b1, h1, h2, h3⟩ := hone
    obtain ⟨c2, b2, h4, h5, h6⟩ := ih (walk_cons hw) hn' ht' c1 b1
    refine ⟨c2, b2, fun r => by rw [List.cons_append, h1, h4], fun hc => .inr ?_, fun h => ?_⟩
    · rcases h5 hc with ⟨rfl, hc1⟩ | ⟨b, rfl⟩
      · exact ⟨[], by rw [h2 hc1]; rfl⟩
      · exact ⟨t :: b, rfl⟩
    · rw [h6 ?_, h3 h]
      simp only [top, Bool.or_eq_false_iff] at h; exact h.2

theorem target_end {a : List Tok} (h : G .target a) : ∀ b, a ≠ b ++ [.op py")"] := by
  intro b e
  cases h with
  | nameTarget hw =>
    have := congrArg List.getLast? e
    simp at this
  | attrTarget ha hw =>
    have := congrArg List.getLast? e
    simp at this
  | subTarget ha hb =>
    have := congrArg List.getLast? e
    simp [List.getLast?_append, List.getLast?_cons] at this

theorem scan_target {a : List Tok} (h : G .target a) (r : List Tok) (close bad : Bool) :
    scan 0 close bad (a ++ r) = scan 0 false bad r := by
  obtain ⟨c', b', h1, h2, h3⟩ := scan_skip (balanced h) (noLine h (by simp)) ((top_assign h).2.2 rfl) close bad
  have hc : c' = false := by
    cases c' with
    | false => rfl
    | true =>
      rcases h2 rfl with ⟨rfl, -⟩ | ⟨b, hb⟩
      · generalize he : ([] : List Tok) = e at h
        cases h <;> simp at he
      · exact absurd hb (target_end h b)
  rw [h1, hc, h3 ((top_comma h).2.2 rfl)]

theorem scan_targets {c : Cat} {a : List Tok} (h : G c a) (hc : c = .targets) (r : List Tok) (close : Bool) :
    scan 0 close false (a ++ r) = scan 0 false false r := by
  induction h generalizing close with
  | oneTarget h _ => exact scan_target h r close false
  | moreTargets h _ _ ih =>
    rw [List.append_assoc, scan_target h, List.cons_append]
    simp only [scan, if_true, Bool.or_self]
    exact ih rfl false
  | _ => simp at hc

/-- What does not have an assignment on the outside. -/
theorem scan_free {c : Cat} {a : List Tok} (h : G c a) (hc : noAssign c = true) (close bad : Bool) :
    ∃ close' bad', ∀ r, scan 0 close bad (a ++ r) = scan 0 close' bad' r := by
  have hn : c ≠ .code := by rintro rfl; simp [noAssign] at hc
  obtain ⟨c', b', h1, -, -⟩ := scan_skip (balanced h) (noLine h hn) ((top_assign h).2.2 hc) close bad
  exact ⟨c', b', h1⟩

theorem scan_simple {a : List Tok} (h : G .simple a) :
    ∃ close' bad', ∀ r, scan 0 false false (a ++ r) = scan 0 close' bad' r := by
  cases h with
  | value h => exact scan_free h rfl _ _
  | assign ha hb =>
    obtain ⟨c, b, h⟩ := scan_free hb rfl false false
    refine ⟨c, b, fun r => ?_⟩
    rw [List.append_assoc, scan_targets ha rfl, List.cons_append]
    simpa [scan] using h r
  | imports h =>
    obtain ⟨c, b, h⟩ := scan_free h rfl false false
    exact ⟨c, b, fun r => by simpa [scan] using h r⟩
  | importAs h hw =>
    obtain ⟨c, b, h⟩ := scan_free h rfl false false
    refine ⟨false, b, fun r => ?_⟩
    simp only [List.cons_append, List.append_assoc, scan, h, List.nil_append]
  | check h =>
    obtain ⟨c, b, h⟩ := scan_free h rfl false false
    exact ⟨c, b, fun r => by simpa [scan] using h r⟩
  | checkSay ha hb =>
    obtain ⟨c, b, h⟩ := scan_free ha rfl false false
    obtain ⟨c', b', h'⟩ := scan_free hb rfl false (b || c)
    refine ⟨c', b', fun r => ?_⟩
    simp only [List.cons_append, List.append_assoc, scan, h, h', if_true]

theorem scan_code {c : Cat} {a : List Tok} (h : G c a) (hc : c = .code) (close bad : Bool) : scan 0 close bad a = true := by
  induction h generalizing close bad with
  | last h _ =>
    obtain ⟨c, b, h⟩ := scan_free h rfl false false
    simpa [scan] using h []
  | lastLine h _ =>
    obtain ⟨c, b, h⟩ := scan_free h rfl false false
    simpa [scan] using h [.nl _]
  | line ha _ _ ih =>
    obtain ⟨c, b, h⟩ := scan_simple ha
    simp only [scan, h, ih rfl]
  | block ha _ hb _ _ _ ih =>
    obtain ⟨c, b, h⟩ := scan_free ha rfl false false
    obtain ⟨c', b', h'⟩ := scan_simple hb
    have h1 : py":" ≠ py"," ∧ py":" ≠ py"=" := by decide
    simp only [scan, h, h', ih rfl, h1.1, h1.2, if_false, depth_lits]
  | _ => simp at hc

/-- A text of which this test finds that it is not code. -/
def wrong (t : Str) : Bool :=
  match lex (.nl 0) t with
  | none => true
  | some ts => !(walk 0 (joinLines 0 ts) == some 0 && scan 0 false false (joinLines 0 ts))

theorem wrong_sound {t : Str} (h : wrong t = true) : ¬Code t := by
  rintro ⟨ts, hl, hg⟩
  simp [wrong, hl, balanced hg, scan_code hg rfl] at h

end Verif.Spec.Python
