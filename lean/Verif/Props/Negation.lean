import Verif.Lemmas.Negation
import Verif.Props.Flags
import Mathlib.LinearAlgebra.Matrix.Notation

namespace Verif.Template
open Verif
open Verif.Spec
open Verif.Matcher (Cfg)

/-! ## C82: flags with the opposite meaning -/

/-- A check on the entries with this matcher. -/
def onClass (cls : Str) (f : Str → Cfg → K → Bool) : Bool := coded cls && Data.apiTable.all fun r =>
  !(Nat.beq r.matcher (Data.encode cls)) || matchers.all fun m =>
    !(Nat.beq (Data.encode m.1) r.matcher) || f r.name r.cfg (m.2 r.name r.cfg)

theorem onClass_sound {cls : Str} {f : Str → Cfg → K → Bool} (h : onClass cls f = true) {r : Data.Raw}
    (hr : r ∈ Data.apiTable) (hn : r.class = cls) {m : Str × (Str → Cfg → K)} (hm : m ∈ matchers) (hc : m.1 = r.class) :
    f r.name r.cfg (m.2 r.name r.cfg) = true := by
  simp only [onClass, Bool.and_eq_true, List.all_eq_true] at h
  have h1 := h.2 r hr
  have hk : r.matcher = Data.encode cls := (Data.decode_eq_iff (by simpa [coded] using h.1)).1 hn
  rw [hk, Nat.beq_refl] at h1
  simp only [Bool.not_true, Bool.false_or] at h1
  have h2 := List.all_eq_true.1 h1 m hm
  rw [Bool.or_eq_true] at h2
  refine h2.resolve_left ?_
  have hmc : m.1 = cls := hc.trans hn
  simp [hmc]

/-- The check of `fin` for calls in which the flag is given. -/
def givenOk (flag : Str) (fin : A → List Q → Bool) (name : Str) (cfg : Cfg) (g : K) : Bool :=
  !(params cfg).contains flag || g.check ⟨apiVal name cfg, false, none, fin⟩ (A.start (params cfg) (flag :: required name))

theorem given_sound {cls flag : Str} {fin : A → List Q → Bool} (h : onClass cls (givenOk flag fin) = true) {r : Data.Raw}
    (hr : r ∈ Data.apiTable) (hn : r.class = cls) {c : Call} (v : Valid r c) {ps : List Piece}
    (hc : Converts r c (.code ps)) (hf : flag ∈ c.args.keys) {P : List Piece → Prop}
    (hP : ∀ a s qs, Rel c a s → fin a qs = true → ∀ w, evalAll c s qs = some w → P w) : P ps := by
  obtain ⟨m, hm, hcl, ho⟩ := hc
  have hk := onClass_sound h hr hn hm hcl
  rw [givenOk, Bool.or_eq_true] at hk
  have hk := hk.resolve_left (by simpa using v.known flag hf)
  have hs : ∀ k ∈ flag :: required r.name, k ∈ c.args.keys := by
    intro k hk
    rcases List.mem_cons.1 hk with rfl | hk
    · exact hf
    · exact v.complete k hk
  have := check_sound (P := fun o => ∀ ps, o = .code ps → P ps) (c := c) v.api (fun k hk => by simp at hk) (by simp) (by simp)
    (fun a s qs hrel hfin w hw => by
      unfold emitOut at hw
      split at hw
      · next x hx =>
        simp only [Out.code.injEq] at hw
        subst hw
        exact hP a s qs hrel hfin x hx
      · simp at hw)
    (m.2 r.name r.cfg) (Rel.start v.wf (params_nodup hr hm hcl) v.known hs) hk
  exact this ps ho

/-- The check of `fin` for calls without the flag. -/
def notGivenOk (flag : Str) (fin : Val → A → List Q → Bool) (name : Str) (cfg : Cfg) (g : K) : Bool :=
  g.check ⟨apiVal name cfg, false, none, fin (apiVal name cfg)⟩ ((A.start (params cfg) (required name)).deny flag)

theorem notGiven_sound {cls flag : Str} {fin : Val → A → List Q → Bool} (h : onClass cls (notGivenOk flag fin) = true)
    {r : Data.Raw} (hr : r ∈ Data.apiTable) (hn : r.class = cls) {c : Call} (v : Valid r c) {ps : List Piece}
    (hc : Converts r c (.code ps)) (hf : flag ∉ c.args.keys) {P : List Piece → Prop}
    (hP : ∀ a s qs, Rel c a s → fin c.api a qs = true → ∀ w, evalAll c s qs = some w → P w) : P ps := by
  obtain ⟨m, hm, hcl, ho⟩ := hc
  have hk := onClass_sound h hr hn hm hcl
  have hno : c.args.has flag = false := by rw [← Bool.not_eq_true, Dict.has_iff]; exact hf
  have := check_sound (P := fun o => ∀ ps, o = .code ps → P ps) (c := c) v.api (fun k hk => by simp at hk) (by simp) (by simp)
    (fun a s qs hrel hfin w hw => by
      unfold emitOut at hw
      split at hw
      · next x hx =>
        simp only [Out.code.injEq] at hw
        subst hw
        exact hP a s qs hrel (v.api ▸ hfin) x hx
      · simp at hw)
    (m.2 r.name r.cfg) ((Rel.start v.wf (params_nodup hr hm hcl) v.known v.complete).deny hno) hk
  exact this ps ho

/-- The two ways in which a matcher writes the negation of an argument. -/
def negated (flag : Str) : List Val :=
  [[.code py"not ", .user flag], [.code py"(not ", .user flag, .code py")"]]

def negFin (ru : NegRule) (a : A) (qs : List Q) : Bool := (negated ru.flag).any fun v => setsFin ru.option v a qs

def litTexts (b : Bool) : List Str := if b then [py"True", py"not False"] else [py"False", py"not True"]

def negAbsent (ru : NegRule) (api : Val) (a : A) (qs : List Q) : Bool :=
  (litTexts !ru.torch).any (fun t => setsFin ru.option [.code t] a qs) ||
    (ru.paddle == !ru.torch && absent ru.option api a qs)

set_option maxRecDepth 100000 in
theorem neg_rules : (negRules.all fun ru => onClass ru.cls (givenOk ru.flag (negFin ru))) = true := by decide +kernel

set_option maxRecDepth 100000 in
theorem neg_absent : (negRules.all fun ru => onClass ru.cls (notGivenOk ru.flag (negAbsent ru))) = true := by
  decide +kernel

theorem user_text {c : Call} {k t : Str} (h : c.args.get? k = some t) : Piece.text c.args c.recv c.fresh (.user k) = t := by
  simp [Piece.text, h]

/-- **C82.** A flag that Paddle has with the opposite meaning, given as one operand (a name, a literal, or an expression in
parentheses; that is how arguments are written): in the code of every valid call the option is there, and its text is the
negation of the expression. -/
theorem C82_negated_flag {ru : NegRule} (hru : ru ∈ negRules) {r : Data.Raw} (hr : r ∈ Data.apiTable)
    (hn : r.class = ru.cls) {c : Call} (v : Valid r c) {ps : List Piece} (hc : Converts r c (.code ps)) {t : Str} {e : B}
    (ht : c.args.get? ru.flag = some t) (he : Operand t e) :
    ∃ w, Sets ru.option w ps ∧ Means (Spec.print c.args c.recv c.fresh w) (.neg e) := by
  have hkey : ru.flag ∈ c.args.keys := Dict.has_iff.1 (by simp [Dict.has, ht])
  refine given_sound (P := fun ps => ∃ w, Sets ru.option w ps ∧ Means (Spec.print c.args c.recv c.fresh w) (.neg e))
    (List.all_eq_true.1 neg_rules ru hru) hr hn v hc hkey fun a s qs hrel h w hw => ?_
  obtain ⟨x, hx, hs⟩ := List.any_eq_true.1 h
  refine ⟨x, setsFin_sound hrel hs hw, ?_⟩
  simp only [negated, List.mem_cons, List.not_mem_nil, or_false] at hx
  rcases hx with rfl | rfl
  · have : Spec.print c.args c.recv c.fresh [.code py"not ", .user ru.flag] = py"not " ++ t := by
      simp [Spec.print, Piece.text, ht]
    rw [this]
    exact means_not he
  · have : Spec.print c.args c.recv c.fresh [.code py"(not ", .user ru.flag, .code py")"] =
        py"(" ++ (py"not " ++ t) ++ py")" := by
      simp [Spec.print, Piece.text, ht]
    rw [this]
    exact means_operand (operand_paren (means_not he))

/-- **C82.** Without the flag, the option is the opposite of what PyTorch takes: its text is that value, or it is not given
and that is the value which Paddle takes. -/
theorem C82_no_flag {ru : NegRule} (hru : ru ∈ negRules) {r : Data.Raw} (hr : r ∈ Data.apiTable)
    (hn : r.class = ru.cls) {c : Call} (v : Valid r c) {ps : List Piece} (hc : Converts r c (.code ps))
    (hf : ru.flag ∉ c.args.keys) :
    (∃ t e, Sets ru.option [.code t] ps ∧ Means t e ∧ ∀ ρ, e.eval ρ = !ru.torch) ∨
      .code (ru.option ++ py"=") ∉ ps ∧ ru.paddle = !ru.torch := by
  refine notGiven_sound (P := fun ps => (∃ t e, Sets ru.option [.code t] ps ∧ Means t e ∧ ∀ ρ, e.eval ρ = !ru.torch) ∨
      .code (ru.option ++ py"=") ∉ ps ∧ ru.paddle = !ru.torch) (List.all_eq_true.1 neg_absent ru hru) hr hn v hc hf fun a s qs hrel h w hw => ?_
  simp only [negAbsent, Bool.or_eq_true, Bool.and_eq_true, beq_iff_eq] at h
  rcases h with h | h
  · obtain ⟨x, hx, hs⟩ := List.any_eq_true.1 h
    have key : ∀ b x, x ∈ litTexts b → ∃ e, Means x e ∧ ∀ ρ, e.eval ρ = b := by
      intro b x hx
      cases b <;> simp only [litTexts, if_true, if_false, Bool.false_eq_true, List.mem_cons, List.not_mem_nil, or_false] at hx <;>
        rcases hx with rfl | rfl
      · exact ⟨.lit false, by decide, fun _ => rfl⟩
      · exact ⟨.neg (.lit true), by decide, fun _ => rfl⟩
      · exact ⟨.lit true, by decide, fun _ => rfl⟩
      · exact ⟨.neg (.lit false), by decide, fun _ => rfl⟩
    obtain ⟨e, he, hv⟩ := key _ x hx
    exact .inl ⟨x, e, setsFin_sound hrel hs hw, he, hv⟩
  · exact .inr ⟨absent_sound hrel h.2 hw, h.1⟩

/-! ## Negations without the parentheses -/

/-- The text is in the list. -/
def hasAll (p : List Q) : List Q → Bool
  | [] => p.isEmpty
  | q :: qs => p.isPrefixOf (q :: qs) || hasAll p qs

theorem evalAll_append {c : Call} {s : St} : ∀ (x y : List Q) {w : Val}, evalAll c s (x ++ y) = some w →
    ∃ a b, evalAll c s x = some a ∧ evalAll c s y = some b ∧ w = a ++ b
  | [], y, w, h => ⟨[], w, rfl, h, rfl⟩
  | q :: x, y, w, h => by
    simp only [List.cons_append, evalAll] at h
    split at h
    · next a b ha hb =>
      obtain ⟨a', b', h1, h2, rfl⟩ := evalAll_append x y hb
      simp only [Option.some.injEq] at h
      exact ⟨a ++ a', b', by simp [evalAll, ha, h1], h2, by simp [← h]⟩
    · simp at h

theorem hasAll_sound {c : Call} {s : St} {p : List Q} : ∀ {qs : List Q} {w : Val}, hasAll p qs = true →
    evalAll c s qs = some w → ∃ x, evalAll c s p = some x ∧ x <:+: w
  | [], w, h, hw => by
    simp only [hasAll, List.isEmpty_iff] at h
    subst h
    exact ⟨[], rfl, List.nil_infix⟩
  | q :: qs, w, h, hw => by
    rw [hasAll, Bool.or_eq_true] at h
    rcases h with h | h
    · obtain ⟨y, hy⟩ := List.isPrefixOf_iff_prefix.1 h
      rw [← hy] at hw
      obtain ⟨a, b, ha, -, rfl⟩ := evalAll_append _ _ hw
      exact ⟨a, ha, [], b, by simp⟩
    · obtain ⟨a, b, -, hb, rfl⟩ := evalAll_append [q] qs hw
      obtain ⟨x, hx, y, z, h⟩ := hasAll_sound h hb
      exact ⟨x, hx, a ++ y, z, by simp [← h]⟩

/-- The text of the option, where the parentheses of the argument are removed. -/
def stripped (flag : Str) : Val := [.code py"not ", .edited flag .strip]

def gradFin (a : A) (qs : List Q) : Bool :=
  a.loc.get? py"requires_grad" == some [.user py"requires_grad"] &&
    hasAll [.lit py".stop_gradient = ", .lit py"not ", .edit .strip py"requires_grad", .lit py"\n"] qs

theorem gradFin_sound {c : Call} {a : A} {s : St} {qs : List Q} {w : Val} (hrel : Rel c a s) (h : gradFin a qs = true)
    (hw : evalAll c s qs = some w) : Assigns py"stop_gradient" (stripped py"requires_grad") w := by
  simp only [gradFin, Bool.and_eq_true, beq_iff_eq] at h
  obtain ⟨x, hx, hi⟩ := hasAll_sound h.2 hw
  have hl : s.loc.get? py"requires_grad" = some [.user py"requires_grad"] := by rw [hrel.loc]; exact h.1
  have : x = [.code py".stop_gradient = ", .code py"not ", .edited py"requires_grad" .strip, .code py"\n"] := by
    simpa [evalAll, Q.eval, hl, editVal] using hx.symm
  rw [this] at hi
  exact hi

set_option maxRecDepth 100000 in
theorem svd_rule : onClass py"SvdMatcher" (givenOk py"some" (setsFin py"full_matrices" (stripped py"some"))) = true := by
  decide +kernel

set_option maxRecDepth 100000 in
theorem grad_rule : ([py"GenericMatcher", py"SignalWindowsWatcher"].all fun cls =>
    onClass cls (givenOk py"requires_grad" gradFin)) = true := by decide +kernel

theorem strip_bare {t n : Str} (h : Bare t n) : Edit.app .strip t = n := by
  obtain ⟨h, hn⟩ := h
  have keep : ∀ s : Str, (∀ c ∈ s, c ≠ '(' ∧ c ≠ ')') → s.dropWhile (fun c => c == '(' || c == ')') = s := by
    intro s hs
    cases s with
    | nil => rfl
    | cons c s =>
      have := hs c (List.mem_cons_self ..)
      simp [this.1, this.2]
  have hr : ∀ c ∈ n.reverse, c ≠ '(' ∧ c ≠ ')' := fun c hc => hn c (List.mem_reverse.1 hc)
  have base : Edit.app .strip n = n := by
    simp only [Edit.app, Str.stripBy, Str.rstripBy, Str.lstripBy, keep n hn, keep _ hr, List.reverse_reverse]
  rcases h with rfl | rfl
  · exact base
  · cases n with
    | nil => rfl
    | cons c n =>
      have hc := hn c (List.mem_cons_self ..)
      have hd : (py"(" ++ (c :: n) ++ py")").dropWhile (fun c => c == '(' || c == ')') = (c :: n) ++ py")" := by
        show ('(' :: c :: (n ++ py")")).dropWhile _ = _
        simp [hc.1, hc.2]
      simp only [Edit.app, Str.stripBy, Str.rstripBy, Str.lstripBy, hd]
      have : ((c :: n) ++ py")").reverse = ')' :: (c :: n).reverse := by simp
      rw [this, List.dropWhile_cons_of_pos (by simp), keep _ hr, List.reverse_reverse]

theorem stripped_text {c : Call} {flag t : Str} (ht : c.args.get? flag = some t) :
    Spec.print c.args c.recv c.fresh (stripped flag) = py"not " ++ Edit.app .strip t := by
  simp [stripped, Spec.print, Piece.text, ht]

theorem stripped_means {c : Call} {flag t n : Str} {e : B} (ht : c.args.get? flag = some t) (hb : Bare t n)
    (he : Operand n e) : Means (Spec.print c.args c.recv c.fresh (stripped flag)) (.neg e) := by
  rw [stripped_text ht, strip_bare hb]
  exact means_not he

/-- **C82** for `some` of `torch.svd`, as far as it holds: the value is a name or a literal. What is missing: expressions in
parentheses, for which it is false. -/
theorem C82_svd_partial {r : Data.Raw} (hr : r ∈ Data.apiTable) (hn : r.class = py"SvdMatcher") {c : Call} (v : Valid r c)
    {ps : List Piece} (hc : Converts r c (.code ps)) {t n : Str} {e : B} (ht : c.args.get? py"some" = some t)
    (hb : Bare t n) (he : Operand n e) :
    ∃ w, Sets py"full_matrices" w ps ∧ Means (Spec.print c.args c.recv c.fresh w) (.neg e) :=
  ⟨_, given_sound svd_rule hr hn v hc (Dict.has_iff.1 (by simp [Dict.has, ht]))
    fun _ _ _ hrel h _ hw => setsFin_sound hrel h hw, stripped_means ht hb he⟩

/-- **C82** for `requires_grad`, which becomes `stop_gradient`, as far as it holds. What is missing: expressions in
parentheses, for which it is false. -/
theorem C82_requires_grad_partial {r : Data.Raw} (hr : r ∈ Data.apiTable)
    (hn : r.class ∈ [py"GenericMatcher", py"SignalWindowsWatcher"]) {c : Call} (v : Valid r c) {ps : List Piece}
    (hc : Converts r c (.code ps)) {t n : Str} {e : B} (ht : c.args.get? py"requires_grad" = some t) (hb : Bare t n)
    (he : Operand n e) :
    ∃ w, Assigns py"stop_gradient" w ps ∧ Means (Spec.print c.args c.recv c.fresh w) (.neg e) :=
  ⟨_, given_sound (List.all_eq_true.1 grad_rule _ hn) hr rfl v hc (Dict.has_iff.1 (by simp [Dict.has, ht]))
    fun _ _ _ hrel h _ hw => gradFin_sound hrel h hw, stripped_means ht hb he⟩

/-- What `a or b` becomes. -/
theorem or_means {c : Call} {flag : Str} (ht : c.args.get? flag = some py"(a or b)") :
    Means (Spec.print c.args c.recv c.fresh (stripped flag)) (.or (.neg (.var py"a")) (.var py"b")) := by
  rw [stripped_text ht]
  decide

/-- **C82 fails** for `some=(a or b)` of `torch.svd`, in every valid call: the option is `not a or b`, and it is true if both
names are, where the negation is false. -/
theorem C82_svd_negative {r : Data.Raw} (hr : r ∈ Data.apiTable) (hn : r.class = py"SvdMatcher") {c : Call} (v : Valid r c)
    {ps : List Piece} (hc : Converts r c (.code ps)) (ht : c.args.get? py"some" = some py"(a or b)") :
    ∃ w e', Sets py"full_matrices" w ps ∧ Means (Spec.print c.args c.recv c.fresh w) e' ∧
      ∃ e, Operand py"(a or b)" e ∧ ∃ ρ, e'.eval ρ ≠ !e.eval ρ :=
  ⟨_, _, given_sound svd_rule hr hn v hc (Dict.has_iff.1 (by simp [Dict.has, ht]))
    fun _ _ _ hrel h _ hw => setsFin_sound hrel h hw, or_means ht,
    .or (.var py"a") (.var py"b"), by decide, fun _ => true, by decide⟩

/-- **C82 fails** for `requires_grad=(a or b)`, in every valid call: the gradient is stopped if both names are true. -/
theorem C82_requires_grad_negative {r : Data.Raw} (hr : r ∈ Data.apiTable)
    (hn : r.class ∈ [py"GenericMatcher", py"SignalWindowsWatcher"]) {c : Call} (v : Valid r c) {ps : List Piece}
    (hc : Converts r c (.code ps)) (ht : c.args.get? py"requires_grad" = some py"(a or b)") :
    ∃ w e', Assigns py"stop_gradient" w ps ∧ Means (Spec.print c.args c.recv c.fresh w) e' ∧
      ∃ e, Operand py"(a or b)" e ∧ ∃ ρ, e'.eval ρ ≠ !e.eval ρ :=
  ⟨_, _, given_sound (List.all_eq_true.1 grad_rule _ hn) hr rfl v hc (Dict.has_iff.1 (by simp [Dict.has, ht]))
    fun _ _ _ hrel h _ hw => gradFin_sound hrel h hw, or_means ht,
    .or (.var py"a") (.var py"b"), by decide, fun _ => true, by decide⟩

/-! ## A flag that is not the opposite of the option -/

set_option maxRecDepth 100000 in
theorem solve_rule : onClass py"LinalgSolveTriangularMatcher"
    (givenOk py"left" (setsFin py"transpose" [.code py"not ", .user py"left"])) = true := by decide +kernel

/-- **C82 fails** for `left` of `torch.linalg.solve_triangular`: in every valid call with `left=False` the code asks for the
solution of the transposed system. But `left=False` stands for `X A = B` and `transpose=True` for `Aᵀ X = B`, and there is
an upper triangular matrix and a right-hand side for which the solutions differ. -/
theorem C82_solve_triangular_negative {r : Data.Raw} (hr : r ∈ Data.apiTable)
    (hn : r.class = py"LinalgSolveTriangularMatcher") {c : Call} (v : Valid r c) {ps : List Piece}
    (hc : Converts r c (.code ps)) (ht : c.args.get? py"left" = some py"(False)") :
    (∃ w e, Sets py"transpose" w ps ∧ Means (Spec.print c.args c.recv c.fresh w) e ∧ ∀ ρ, e.eval ρ = true) ∧
      ∃ a b : Matrix (Fin 2) (Fin 2) ℤ, a 1 0 = 0 ∧ ∃ x y, x * a = b ∧ a.transpose * y = b ∧ x ≠ y ∧
        (∀ x', x' * a = b → x' = x) ∧ ∀ y', a.transpose * y' = b → y' = y := by
  have hs : Sets py"transpose" [.code py"not ", .user py"left"] ps :=
    given_sound solve_rule hr hn v hc (Dict.has_iff.1 (by simp [Dict.has, ht])) fun _ _ _ hrel h _ hw => setsFin_sound hrel h hw
  refine ⟨⟨_, .neg (.lit false), hs, ?_, fun _ => rfl⟩, ?_⟩
  · have : Spec.print c.args c.recv c.fresh [.code py"not ", .user py"left"] = py"not (False)" := by
      simp [Spec.print, Piece.text, ht]
    rw [this]
    decide
  · refine ⟨!![1, 1; 0, 1], 1, rfl, !![1, -1; 0, 1], !![1, 0; -1, 1], by decide, by decide, by decide, fun x h => ?_, fun y h => ?_⟩
    · have : x * !![1, 1; 0, 1] * !![1, -1; 0, 1] = !![1, -1; 0, 1] := by rw [h, Matrix.one_mul]
      rwa [Matrix.mul_assoc, show (!![1, 1; 0, 1] : Matrix (Fin 2) (Fin 2) ℤ) * !![1, -1; 0, 1] = 1 by decide, Matrix.mul_one] at this
    · have : !![1, 0; -1, 1] * (Matrix.transpose !![1, 1; 0, 1] * y) = !![1, 0; -1, 1] := by rw [h, Matrix.mul_one]
      rwa [← Matrix.mul_assoc, show (!![1, 0; -1, 1] : Matrix (Fin 2) (Fin 2) ℤ) * Matrix.transpose !![1, 1; 0, 1] = 1 by decide,
        Matrix.one_mul] at this

/-! ## Calls that meet the hypotheses -/

/-- As `becomes`, with the matcher of the entry. -/
def becomesBy (a cls : Str) (args : Dict Str Str) (text : Str) : Bool := coded a && someEntry a fun r =>
  decide (r.class = cls) && decide (Valid r (callOf r args)) && codeWith r (callOf r args) fun ps =>
    Spec.print args py"r" (fun s => s ++ py"_0") ps == text

theorem becomesBy_sound {a cls : Str} {args : Dict Str Str} {text : Str} (h : becomesBy a cls args text = true) :
    ∃ r ∈ Data.apiTable, r.name = a ∧ r.class = cls ∧ ∃ c ps, c.args = args ∧ Valid r c ∧ Converts r c (.code ps) ∧
      Spec.print c.args c.recv c.fresh ps = text := by
  simp only [becomesBy, Bool.and_eq_true] at h
  obtain ⟨r, hr, hn, h⟩ := someEntry_sound (by simpa [coded] using h.1) h.2
  simp only [Bool.and_eq_true, decide_eq_true_eq] at h
  obtain ⟨ps, hps, ht⟩ := converts_of h.2
  exact ⟨r, hr, hn, h.1.1, _, ps, rfl, h.1.2, hps, eq_of_beq ht⟩

set_option maxRecDepth 100000 in
example : Operand py"(a or b)" (.or (.var py"a") (.var py"b")) ∧ ∃ ru ∈ negRules, ∃ r ∈ Data.apiTable,
    r.name = py"torch.nn.functional.avg_pool1d" ∧ r.class = ru.cls ∧ ∃ c ps,
    c.args = [(py"input", py"x"), (py"kernel_size", py"(2)"), (ru.flag, py"(a or b)")] ∧ Valid r c ∧
    Converts r c (.code ps) ∧ Spec.print c.args c.recv c.fresh ps =
      py"\npaddle.nn.functional.avg_pool1d(x=x, kernel_size=(2), exclusive=not (a or b))\n" :=
  ⟨by decide, ⟨py"AvgPoolMatcher", py"count_include_pad", py"exclusive", true, true⟩, by simp [negRules],
    becomesBy_sound (by decide +kernel)⟩

set_option maxRecDepth 100000 in
example : ∃ ru ∈ negRules, ∃ r ∈ Data.apiTable, r.name = py"torch.optim.Optimizer.zero_grad" ∧ r.class = ru.cls ∧ ∃ c ps,
    c.args = [] ∧ Valid r c ∧ Converts r c (.code ps) ∧
    Spec.print c.args c.recv c.fresh ps = py"r.clear_gradients(set_to_zero=False)" :=
  ⟨⟨py"ZeroGradMatcher", py"set_to_none", py"set_to_zero", true, true⟩, by simp [negRules],
    becomesBy_sound (by decide +kernel)⟩

set_option maxRecDepth 100000 in
example : Bare py"(True)" py"True" ∧ Operand py"True" (.lit true) ∧ ∃ r ∈ Data.apiTable, r.name = py"torch.scalar_tensor" ∧
    r.class = py"GenericMatcher" ∧ ∃ c ps, c.args = [(py"s", py"x"), (py"requires_grad", py"(True)")] ∧ Valid r c ∧
    Converts r c (.code ps) ∧ Spec.print c.args c.recv c.fresh ps =
      py"\nout_0 = paddle.to_tensor(data=x, dtype=paddle.float32)\nout_0.stop_gradient = not True\nout_0\n" :=
  ⟨⟨.inr rfl, by decide⟩, by decide, becomesBy_sound (by decide +kernel)⟩

set_option maxRecDepth 100000 in
example : Bare py"v" py"v" ∧ Operand py"v" (.var py"v") ∧ ∃ r ∈ Data.apiTable, r.name = py"torch.Tensor.svd" ∧
    r.class = py"SvdMatcher" ∧ ∃ c ps, c.args = [(py"some", py"v")] ∧ Valid r c ∧
    Converts r c (.code ps) ∧ Spec.print c.args c.recv c.fresh ps =
      py"\ntmp_u, tmp_s, tmp_v = paddle.linalg.svd(x=r, full_matrices=not v)\ntmp_u, tmp_s, tmp_v.conj().t()\n" :=
  ⟨⟨.inl rfl, by decide⟩, by decide, becomesBy_sound (by decide +kernel)⟩

set_option maxRecDepth 100000 in
example : ∃ r ∈ Data.apiTable, r.name = py"torch.scalar_tensor" ∧
    r.class = py"GenericMatcher" ∧ ∃ c ps, c.args = [(py"s", py"x"), (py"requires_grad", py"(a or b)")] ∧ Valid r c ∧
    Converts r c (.code ps) ∧ Spec.print c.args c.recv c.fresh ps =
      py"\nout_0 = paddle.to_tensor(data=x, dtype=paddle.float32)\nout_0.stop_gradient = not a or b\nout_0\n" :=
  becomesBy_sound (by decide +kernel)

set_option maxRecDepth 100000 in
example : ∃ r ∈ Data.apiTable, r.name = py"torch.linalg.solve_triangular" ∧ r.class = py"LinalgSolveTriangularMatcher" ∧
    ∃ c ps, c.args = [(py"input", py"a"), (py"B", py"b"), (py"upper", py"(True)"), (py"left", py"(False)")] ∧ Valid r c ∧
    Converts r c (.code ps) ∧ Spec.print c.args c.recv c.fresh ps =
      py"paddle.linalg.triangular_solve(transpose=not (False), x=a, y=b, upper=(True))" :=
  becomesBy_sound (by decide +kernel)

end Verif.Template
