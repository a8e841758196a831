import Verif.Lemmas.PythonPieces

/-! # The text of a call -/

namespace Verif.Spec.Python
open Verif

/-- What is written in front of an argument. -/
inductive Head
  | pos
  | star
  | key (k : Str)
  | dict

def Head.text : Head → Str
  | .pos => []
  | .star => py"*"
  | .key k => k ++ py"="
  | .dict => py"**"

def Head.toks : Head → List Tok
  | .pos => []
  | .star => [.op py"*"]
  | .key k => [.word k, .op py"="]
  | .dict => [.op py"**"]

/-- Keywords and `**`. -/
def Head.late : Head → Bool
  | .pos | .star => false
  | _ => true

/-- The text of an argument. -/
def ArgText (h : Head) (t : Str) : Prop := ∃ v, t = h.text ++ v ∧ Expr 0 v ∧ ∀ k, h = .key k → Name k

theorem lex_arg {h : Head} {t : Str} (ha : ArgText h t) {m : Mode} (hm : m = .start ∨ m = .op py"(") {fs : List Tok}
    (hf : flush m = some fs) {u : Str} {us : List Tok} (hu : lex .start u = some us) (hn : ∀ c w, u = c :: w → okNext 0 c = true) :
    ∃ ts, lex m (t ++ u) = some (fs ++ (h.toks ++ (ts ++ us))) ∧ G (.expr 0) (joinLines 0 ts) := by
  obtain ⟨v, rfl, hv, hk⟩ := ha
  have hr : ready m = true := by rcases hm with rfl | rfl <;> rfl
  cases h with
  | pos =>
    obtain ⟨ts, h1, h2⟩ := lex_hole hv hr hf hu hn
    exact ⟨ts, by simpa [Head.text, Head.toks] using h1, h2⟩
  | key k =>
    obtain ⟨ts, h1, h2⟩ := lex_key (hk k rfl) hr hf hv hu hn
    refine ⟨ts, ?_, h2⟩
    simp only [Head.text, Head.toks, List.append_assoc] at h1 ⊢
    exact h1
  | star =>
    obtain ⟨ts, h1, h2⟩ := lex_hole hv (m := .op py"*") rfl rfl hu hn
    refine ⟨ts, ?_, h2⟩
    have hrun : run m py"*" = some (fs, .op py"*") := by
      rcases hm with rfl | rfl <;> simp only [flush, Option.some.injEq] at hf <;> subst hf <;> decide
    have := lex_append hrun h1
    simpa [Head.text, Head.toks] using this
  | dict =>
    obtain ⟨ts, h1, h2⟩ := lex_hole hv (m := .op py"**") rfl rfl hu hn
    refine ⟨ts, ?_, h2⟩
    have hrun : run m py"**" = some (fs, .op py"**") := by
      rcases hm with rfl | rfl <;> simp only [flush, Option.some.injEq] at hf <;> subst hf <;> decide
    have := lex_append hrun h1
    simpa [Head.text, Head.toks] using this

theorem join_head {h : Head} {ts us : List Tok} (hg : G (.expr 0) (joinLines 0 ts)) :
    joinLines 0 (h.toks ++ (ts ++ us)) = h.toks ++ (joinLines 0 ts ++ joinLines 0 us) := by
  have h1 : depth 0 (.op py"=") = 0 := by decide
  have h2 : ∀ k, depth 0 (.word k) = 0 := fun _ => rfl
  have h3 : depth 0 (.op py"*") = 0 := by decide
  have h4 : depth 0 (.op py"**") = 0 := by decide
  cases h <;> simp only [Head.toks, List.nil_append, List.cons_append, joinLines, h1, h2, h3, h4, join_gap hg (by simp)]

/-- Keywords come last. -/
def ordered : List Head → Bool
  | [] => true
  | h :: hs => (!h.late || hs.all Head.late) && ordered hs

theorem args_sound : ∀ {l : List (Head × Str)}, (∀ x ∈ l, ArgText x.1 x.2) → ordered (l.map (·.1)) = true →
    ∀ {m : Mode}, m = .start ∨ m = .op py"(" → ∀ {fs us : List Tok} {u : Str}, flush m = some fs →
      lex .start (')' :: u) = some us →
      ∃ ts, lex m (Str.join py", " (l.map (·.2)) ++ ')' :: u) = some (fs ++ (ts ++ us)) ∧ G .args (joinLines 0 ts) ∧
        (l.all (fun x => x.1.late) = true → G .kwargs (joinLines 0 ts))
  | [], _, _, m, hm, fs, us, u, hf, hu => by
    refine ⟨[], ?_, .onlyKws .noKw, fun _ => .noKw⟩
    simp only [Str.join, List.map_nil, List.nil_append]
    refine lex_stop ?_ hf hu
    rcases hm with rfl | rfl <;> rfl
  | [(h, t)], hl, _, m, hm, fs, us, u, hf, hu => by
    obtain ⟨ts, h1, hg⟩ := lex_arg (hl _ (List.mem_cons_self ..)) hm hf hu (fun c w e => by
      simp only [List.cons.injEq] at e; rw [← e.1]; exact okNext_close 0)
    have hj := join_head (h := h) (us := []) hg
    simp only [List.append_nil, joinLines] at hj
    obtain ⟨v, -, -, hk⟩ := hl _ (List.mem_cons_self ..)
    refine ⟨h.toks ++ ts, by simpa [Str.join] using h1, ?_, ?_⟩
    · rw [hj]
      cases h with
      | pos => exact .oneArg hg
      | star => exact .oneStar hg
      | key k => exact .onlyKws (.oneKw (hk k rfl).1 hg)
      | dict => exact .onlyKws (.oneDict hg)
    · intro hlate
      rw [hj]
      cases h with
      | pos => simp [Head.late] at hlate
      | star => simp [Head.late] at hlate
      | key k => exact .oneKw (hk k rfl).1 hg
      | dict => exact .oneDict hg
  | (h, t) :: x :: l, hl, ho, m, hm, fs, us, u, hf, hu => by
    have ho' : (!h.late || ((x :: l).map (·.1)).all Head.late) = true ∧ ordered ((x :: l).map (·.1)) = true := by
      simpa [ordered] using ho
    obtain ⟨rs, hrs, hrg, hrk⟩ := args_sound (l := x :: l) (fun y hy => hl y (List.mem_cons_of_mem _ hy)) ho'.2
      (m := .start) (.inl rfl) rfl hu
    have h1 : lex .start (py", " ++ (Str.join py", " ((x :: l).map (·.2)) ++ ')' :: u)) = some (.op py"," :: (rs ++ us)) := by
      have : run .start py", " = some ([.op py","], .start) := by decide
      have := lex_append this hrs
      simpa using this
    obtain ⟨ts, h2, hg⟩ := lex_arg (hl _ (List.mem_cons_self ..)) hm hf h1 (fun c w e => by
      have : ',' = c := (List.cons.inj e).1
      subst this; exact okNext_comma 0)
    have hj := join_head (h := h) (us := .op py"," :: rs) hg
    have hc : depth 0 (.op py",") = 0 := by decide
    simp only [joinLines, hc] at hj
    obtain ⟨v, -, -, hk⟩ := hl _ (List.mem_cons_self ..)
    refine ⟨h.toks ++ (ts ++ .op py"," :: rs), ?_, ?_, ?_⟩
    · simpa [Str.join] using h2
    · rw [hj]
      cases h with
      | pos => exact .moreArgs hg hrg
      | star => exact .moreStars hg hrg
      | key k =>
        have : G .kwargs (joinLines 0 rs) := hrk (by simpa [Head.late, List.all_map] using ho'.1)
        exact .onlyKws (.moreKws (hk k rfl).1 hg this)
      | dict =>
        have : G .kwargs (joinLines 0 rs) := hrk (by simpa [Head.late, List.all_map] using ho'.1)
        exact .onlyKws (.moreDicts hg this)
    · intro hlate
      rw [hj]
      simp only [List.all_cons, Bool.and_eq_true] at hlate
      have : G .kwargs (joinLines 0 rs) := hrk (by simpa using hlate.2)
      cases h with
      | pos => simp [Head.late] at hlate
      | star => simp [Head.late] at hlate
      | key k => exact .moreKws (hk k rfl).1 hg this
      | dict => exact .moreDicts hg this

/-- A function with arguments can be parsed. -/
theorem call_code {api : Str} (hapi : Expr 14 api) {l : List (Head × Str)} (hl : ∀ x ∈ l, ArgText x.1 x.2)
    (ho : ordered (l.map (·.1)) = true) : Code (api ++ py"(" ++ Str.join py", " (l.map (·.2)) ++ py")") := by
  have hu : lex .start (')' :: []) = some [.op py")"] := by decide
  obtain ⟨ts, h1, hg, -⟩ := args_sound hl ho (m := .op py"(") (.inr rfl) rfl hu
  have h2 : lex .start (py"(" ++ (Str.join py", " (l.map (·.2)) ++ py")")) = some (.op py"(" :: (ts ++ [.op py")"])) := by
    have : run .start py"(" = some ([], .op py"(") := by decide
    have := lex_append this h1
    simpa using this
  obtain ⟨as, h3, ha⟩ := lex_hole hapi (m := .nl 0) rfl rfl h2 (fun c w e => by
    have : '(' = c := (List.cons.inj e).1
    subst this; decide)
  refine ⟨_, by simpa only [List.append_assoc] using h3, ?_⟩
  have hj : joinLines 0 (.nl 0 :: (as ++ .op py"(" :: (ts ++ [.op py")"]))) =
      .nl 0 :: (joinLines 0 as ++ .op py"(" :: (joinLines 0 ts ++ [.op py")"])) := by
    have d1 : depth 0 (.op py"(") = 1 := by decide
    simp only [joinLines, if_true, join_gap ha (show Cat.expr 14 ≠ .code by simp), d1, join_gap hg (show Cat.args ≠ .code by simp)]
  simp only [List.cons_append, List.nil_append] at *
  rw [hj]
  exact .last (.oneExpr ((G.call ha hg).weaken (by omega)))

end Verif.Spec.Python
