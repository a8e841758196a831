import Verif.Model.Call
import Verif.Props.Args

/-!
# Calls that are left alone, calls that pass `self` (C66, C67)
-/

namespace Verif.Matcher
open Verif

theorem leftKws_removed (cfg : Cfg) (an : Bool) (kws : List Kw) : Removed cfg kws (leftKws cfg an kws) := by
  have refl : ∀ l : List Kw, Removed cfg l l := by
    intro l
    induction l with
    | nil => exact .nil
    | cons x l ih => exact .keep x ih
  generalize hn : kws.length = n
  induction n using Nat.strongRecOn generalizing kws with
  | ind n ih =>
    cases kws with
    | nil => exact .nil
    | cons x rest =>
      unfold leftKws
      split
      · exact refl _
      · next k hk =>
        split
        · next hu =>
          split
          · next hnone =>
            have hd : Droppable cfg x := ⟨⟨k, hk, hu⟩, hnone⟩
            split
            · exact .drop x hd .nil
            · next m rest' =>
              exact .drop x hd (.keep m (ih rest'.length (by simp at hn; omega) rest' rfl))
          · exact refl _
        · split
          · exact refl _
          · exact .keep x (ih rest.length (by simp at hn; omega) rest rfl)

theorem removed_eq {cfg : Cfg} {a b : List Kw} (h : Removed cfg a b) (hn : ∀ n ∈ a, ¬ Droppable cfg n) : b = a := by
  induction h with
  | nil => rfl
  | keep n _ ih => rw [ih (fun m hm => hn m (by simp [hm]))]
  | drop n hd _ _ => exact absurd hd (hn n (by simp))

/-- The call that is left in the program, if it is. -/
def Fate.left : Fate → Option Call
  | .kept c => some c
  | .reported c => some c
  | _ => none

theorem leftCall_args (cfg : Cfg) (c : Call) : (leftCall cfg c).args = c.args := by
  unfold leftCall; split <;> rfl

theorem leftCall_removed (cfg : Cfg) (c : Call) : Removed cfg c.kws (leftCall cfg c).kws := by
  unfold leftCall
  split
  · have : ∀ l : List Kw, Removed cfg l l := by
      intro l
      induction l with
      | nil => exact .nil
      | cons x l ih => exact .keep x ih
    exact this _
  · exact leftKws_removed cfg false c.kws

/-- **C66, what can be lost.** A method call that is left in the program keeps its positional arguments and all its
keywords, in order, except keywords of unsupported parameters that have the value `None`. -/
theorem C66_only_none_lost (cfg : Cfg) (gen : Kwargs → Answer) (inExpr : Bool) (c c' : Call)
    (h : (transMethod (some (baseNodes cfg gen)) inExpr c).left = some c') :
    c'.args = c.args ∧ Removed cfg c.kws c'.kws := by
  have key : ∀ c0 : Call, c0.kws = c.kws →
      Removed cfg c.kws ({ c with kws := (baseNodes cfg gen c0).2.kws } : Call).kws := by
    intro c0 h0
    rw [← h0]
    exact leftCall_removed cfg c0
  simp only [transMethod] at h
  split at h
  · split at h
    · simp [Fate.left] at h
    · simp only [Fate.left, Option.some.injEq] at h; subst h; exact ⟨rfl, key _ rfl⟩
  · simp only [Fate.left, Option.some.injEq] at h; subst h; exact ⟨rfl, key _ rfl⟩
  · simp only [Fate.left, Option.some.injEq] at h; subst h; exact ⟨rfl, key _ rfl⟩
  · simp [Fate.left] at h
  · simp only [Fate.left, Option.some.injEq] at h; subst h; exact ⟨rfl, key _ rfl⟩

/-- **C66, what can be lost, for calls of package functions.** -/
theorem C66_only_none_lost_package (cfg : Cfg) (gen : Kwargs → Answer) (inExpr : Bool) (c c' : Call)
    (h : (transCall (some (baseNodes cfg gen)) inExpr c).left = some c') :
    c'.args = c.args ∧ Removed cfg c.kws c'.kws := by
  have key : (baseNodes cfg gen c).2.args = c.args ∧ Removed cfg c.kws (baseNodes cfg gen c).2.kws :=
    ⟨leftCall_args cfg c, leftCall_removed cfg c⟩
  simp only [transCall] at h
  split at h
  · split at h
    · simp [Fate.left] at h
    · simp only [Fate.left, Option.some.injEq] at h; subst h; exact key
  · simp only [Fate.left, Option.some.injEq] at h; subst h; exact key
  · simp only [Fate.left, Option.some.injEq] at h; subst h; exact key
  · simp [Fate.left] at h
  · simp only [Fate.left, Option.some.injEq] at h; subst h; exact key

/-- **C66, partial, for calls of package functions.** -/
theorem C66_left_unchanged_package_partial (cfg : Cfg) (gen : Kwargs → Answer) (inExpr : Bool) (c c' : Call)
    (hn : ∀ n ∈ c.kws, ¬ Droppable cfg n)
    (h : (transCall (some (baseNodes cfg gen)) inExpr c).left = some c') : c' = c := by
  obtain ⟨h1, h2⟩ := C66_only_none_lost_package cfg gen inExpr c c' h
  have h3 := removed_eq h2 hn
  cases c; cases c'; simp_all

/-- **C66, partial.** A method call that is left in the program is left as it was, provided that no keyword of an
unsupported parameter has the value `None`. -/
theorem C66_left_unchanged_partial (cfg : Cfg) (gen : Kwargs → Answer) (inExpr : Bool) (c c' : Call)
    (hn : ∀ n ∈ c.kws, ¬ Droppable cfg n)
    (h : (transMethod (some (baseNodes cfg gen)) inExpr c).left = some c') : c' = c := by
  obtain ⟨h1, h2⟩ := C66_only_none_lost cfg gen inExpr c c' h
  have h3 := removed_eq h2 hn
  cases c; cases c'; simp_all

/-- The entry of `torch.Tensor.median`, api_mapping.json. -/
def medianCfg : Cfg where
  argsList := [py"dim", py"keepdim"]
  unsupport := [py"dim"]
  change := [(py"dim", .one py"axis")]
  paddleApi := some py"paddle.Tensor.median"

example : (transMethod (some (baseNodes medianCfg fun _ => .unchange)) true
      { args := [], kws := [{ arg := some py"keepdim", src := py"(True)" }, { arg := some py"w", src := py"w" }] }).left
    = some { args := [], kws := [{ arg := some py"keepdim", src := py"(True)" }, { arg := some py"w", src := py"w" }] } := by
  decide

/-- **C66 is false in general**, with a shipped entry. `stats.median(dim=None, keepdim=True, weights=w)` is taken for a
Tensor method, found not to be one, and left without a report, but as `stats.median(keepdim=True, weights=w)`. This
holds for every code generator. -/
theorem C66_negative : ∃ c c' : Call, c' ≠ c ∧ c'.kws.length < c.kws.length ∧
    ∀ gen inExpr, transMethod (some (baseNodes medianCfg gen)) inExpr c = .kept c' :=
  ⟨{ kws := [{ arg := some py"dim", src := py"None", isNone := true }, { arg := some py"keepdim", src := py"(True)" },
      { arg := some py"weights", src := py"w" }] },
   { kws := [{ arg := some py"keepdim", src := py"(True)" }, { arg := some py"weights", src := py"w" }] },
   by decide, by decide, fun gen inExpr => by rfl⟩

/-- **C66, reported calls.** The same with a call that is reported as not supported, so that the user has to convert
a call that is no longer their own: `x.median(dim=None, keepdim=True, **kw)`. -/
theorem C66_reported_negative : ∃ c c' : Call, c'.kws.length < c.kws.length ∧
    ∀ gen inExpr, transMethod (some (baseNodes medianCfg gen)) inExpr c = .reported c' :=
  ⟨{ kws := [{ arg := some py"dim", src := py"None", isNone := true }, { arg := some py"keepdim", src := py"(True)" },
      { arg := none, src := py"kw" }] },
   { kws := [{ arg := some py"keepdim", src := py"(True)" }, { arg := none, src := py"kw" }] },
   by decide, fun gen inExpr => by rfl⟩

/-! ## C67 -/

/-- The method call with its arguments as they are: what happens to a call without `self`. -/
def Spec.asWritten (a : Answer) (c left : Call) (inExpr : Bool) : Fate :=
  match a with
  | .delete => if inExpr then .removed else .reported { c with kws := left.kws }
  | .unchange => .kept { c with kws := left.kws }
  | .misidentify => .kept { c with kws := left.kws }
  | .code n => .replaced n
  | .nothing => .reported { c with kws := left.kws }

/-- **C67, partial.** A call whose first argument is not the plain name `self` is converted with the arguments it
has, by any matcher. -/
theorem C67_other_names_partial (m : Call → Answer × Call) (inExpr : Bool) (c : Call)
    (h : ∀ a ∈ c.args.head?, ¬ (a.starred = false ∧ a.src = py"self")) :
    transMethod (some m) inExpr c = Spec.asWritten (m c).1 c (m c).2 inExpr := by
  have hs : selfFirst c.args = false := by
    cases ha : c.args with
    | nil => rfl
    | cons a l =>
      have := h a (by simp [ha])
      unfold selfFirst
      simp only [Bool.and_eq_false_iff, Bool.not_eq_false', decide_eq_false_iff_not]
      cases hst : a.starred
      · right; intro e; exact this ⟨hst, e⟩
      · left; rfl
  simp only [transMethod, hs, Spec.asWritten]
  generalize hm : m _ = r
  have : m c = r := by rw [← hm]; rfl
  rw [this]
  cases r.1 <;> rfl

/-- A variable name, as an argument. -/
def var (v : Str) : Arg := { src := v }

/-- **C67 is false.** `x.m(v, a₂, …, aₙ)` for a method with exactly `n ≥ 1` required arguments: with any variable `v`
other than `self` the call reaches the code generator with all its arguments, and with `v = self` the same call is
taken for a call of something else, left as it is and not reported. This holds for every entry of the table whose `n`
required parameters can be given by position and are supported. -/
theorem C67_self_negative (cfg : Cfg) (gen : Kwargs → Answer) (inExpr : Bool) (rest : List Arg) (v : Str)
    (hv : v ≠ py"self") (hr : ∀ a ∈ rest, a.starred = false) (hmin : cfg.minInput = rest.length + 1)
    (hpos : rest.length + 1 ≤ (posArgs cfg).length) (hsup : ∀ k ∈ (posArgs cfg).take (rest.length + 1), k ∉ cfg.unsupport) :
    transMethod (some (baseNodes cfg gen)) inExpr { args := var py"self" :: rest }
        = .kept { args := var py"self" :: rest } ∧
      ∃ d, parseArgs cfg (var v :: rest) [] = .ok d ∧
        transMethod (some (baseNodes cfg gen)) inExpr { args := var v :: rest }
          = Spec.asWritten (gen d) { args := var v :: rest } { args := var v :: rest } inExpr := by
  have hns : ∀ w, (var w :: rest).any (·.starred) = false := by
    intro w
    rw [List.any_eq_false]
    intro a ha
    rcases List.mem_cons.1 ha with rfl | ha
    · simp [var]
    · simp [hr a ha]
  have hnr : rest.any (·.starred) = false := by
    rw [List.any_eq_false]; intro a ha; simp [hr a ha]
  refine ⟨?_, ?_⟩
  · have hp : parseArgs cfg rest [] = .misidentify := by
      simp only [parseArgs, hnr, scanKw, List.length_nil]
      simp only [Bool.false_and, Bool.false_eq_true, if_false]
      rw [if_pos]
      rw [hmin]; push_cast; omega
    have hs : selfFirst (var py"self" :: rest) = true := by simp [selfFirst, var]
    simp only [transMethod, hs, if_true, List.drop_succ_cons, List.drop_zero, baseNodes, hp]
    simp [leftCall, hnr, leftKws]
  · have hb : ∀ (ks : List Str) (as : List Arg) (d : Kwargs), as.length ≤ ks.length →
        (∀ k ∈ ks.take as.length, k ∉ cfg.unsupport) → ∃ d', bindPos cfg ks as d = .ok d' := by
      intro ks as
      induction as generalizing ks with
      | nil => intro d _ _; exact ⟨d, by cases ks <;> rfl⟩
      | cons a as ih =>
        intro d hl hk
        cases ks with
        | nil => simp at hl
        | cons k ks =>
          simp only [List.length_cons, List.take_succ_cons, List.mem_cons] at hl hk
          obtain ⟨d', hd'⟩ := ih ks (d.set (some k) a.src) (by omega) (fun k' h => hk k' (Or.inr h))
          exact ⟨d', by simp only [bindPos, if_neg (hk k (Or.inl rfl)), hd']⟩
    obtain ⟨d, hd⟩ := hb (posArgs cfg) (var v :: rest) [] (by simpa using hpos) (by simpa using hsup)
    have hp : parseArgs cfg (var v :: rest) [] = .ok d := by
      simp only [parseArgs, hns v, scanKw, List.length_nil, Bool.false_and, Bool.false_eq_true, if_false]
      rw [if_neg, if_neg, hd]
      · rfl
      · simp only [List.length_cons]; push_cast; omega
      · rw [hmin]; simp only [List.length_cons]; push_cast; omega
    refine ⟨d, hp, ?_⟩
    rw [C67_other_names_partial]
    · simp only [baseNodes, hp]
      simp [leftCall, hns v, leftKws]
    · intro a ha
      simp only [List.head?_cons, Option.mem_def, Option.some.injEq] at ha
      subst ha
      simp [var, hv]

/-- The entry of `torch.Tensor.vdot`, api_mapping.json. -/
def oneArg : Cfg where
  argsList := [py"other"]
  minInput := 1
  change := [(py"other", .one py"y")]
  paddleApi := some py"paddle.Tensor.dot"

/-- The hypotheses of `C67_self_negative` are met. -/
example : (∀ a ∈ ([] : List Arg), a.starred = false) ∧ oneArg.minInput = ([] : List Arg).length + 1 ∧
    ([] : List Arg).length + 1 ≤ (posArgs oneArg).length ∧
    ∀ k ∈ (posArgs oneArg).take (([] : List Arg).length + 1), k ∉ oneArg.unsupport := by decide

/-- **C67, arguments move.** With an optional parameter the arguments after `self` are bound one parameter too early
and `self` is put in front of them: `x.m(self, b)` of a method `m(p, q)` becomes `m(self, p=b)`, where `x.m(v, b)`
becomes `m(p=v, q=b)`. -/
theorem C67_shift_negative :
    let cfg : Cfg := { argsList := [py"p", py"q"] }
    let m := baseNodes cfg fun d => .code (.call py"x.m" (d.map kwText))
    transMethod (some m) true { args := [var py"v", var py"b"] } = .replaced (.call py"x.m" [py"p=v", py"q=b"]) ∧
    transMethod (some m) true { args := [var py"self", var py"b"] }
      = .replaced (.call py"x.m" [py"self", py"p=b"]) := by decide

/-- **C67, `self` is lost** when the generated code is no call. -/
theorem C67_lost_negative (m : Call → Answer × Call) (inExpr : Bool) (rest : List Arg) (kws : List Kw) (s : Str)
    (h : (m { args := rest, kws := kws }).1 = .code (.other s)) :
    transMethod (some m) inExpr { args := var py"self" :: rest, kws := kws } = .replaced (.other s) := by
  have hs : selfFirst (var py"self" :: rest) = true := by simp [selfFirst, var]
  simp only [transMethod, hs, if_true, List.drop_succ_cons, List.drop_zero, h, insertSelf]

end Verif.Matcher
