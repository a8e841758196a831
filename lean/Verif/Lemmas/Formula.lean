import Verif.Props.Negation
import Verif.Lemmas.Erf

/-! The formulas that matchers write, for all their calls. -/

namespace Verif.Template
open Verif
open Verif.Spec
open Verif.Spec.Formula
open Verif.Matcher (Cfg)

/-- `a + b` for `paddle.add(a, b)`. -/
def plus : E → E
  | .call2 f a key b => if f = py"paddle.add" ∧ key = [] then .add a b else .call2 f a key b
  | e => e

/-- Without storing the result in `out`. -/
def bare : E → E
  | .call2 f a key b => plus (if f = py"paddle.assign" then a else .call2 f a key b)
  | e => e

def piecesFin (ok : List Piece → Bool) (api : Val) (a : A) (qs : List Q) : Bool :=
  match valAll api a qs with
  | some v => ok v
  | none => false

/-- In every call the pieces of the code pass the check. It may depend on which of the arguments `flags` are given. -/
def piecesOk (flags : List Str) (ok : Str → (Str → Bool) → List Piece → Bool) (name : Str) (cfg : Cfg) (g : K) : Bool :=
  flags.sublists.all fun given => !given.all (params cfg).contains ||
    g.check ⟨apiVal name cfg, false, none, piecesFin (ok name given.contains) (apiVal name cfg)⟩
      ((flags.filter (!given.contains ·)).foldl (fun a k => a.deny k) (A.start (params cfg) (given ++ required name)))

theorem Rel.denyAll {c : Call} {s : St} {l : List Str} (hl : ∀ k ∈ l, c.args.has k = false) {a : A} (h : Rel c a s) :
    Rel c (l.foldl (fun a k => a.deny k) a) s := by
  induction l generalizing a with
  | nil => exact h
  | cons k l ih =>
    exact ih (fun j hj => hl j (List.mem_cons_of_mem _ hj)) (h.deny (hl k (List.mem_cons_self ..)))

theorem pieces_sound {cls : Str} {flags : List Str} {ok : Str → (Str → Bool) → List Piece → Bool}
    (h : onClass cls (piecesOk flags ok) = true)
    (hf : ∀ n p q, (∀ k ∈ flags, p k = q k) → ok n p = ok n q) {r : Data.Raw}
    (hr : r ∈ Data.apiTable) (hn : r.class = cls) {c : Call} (v : Valid r c) {ps : List Piece}
    (hc : Converts r c (.code ps)) : ok r.name c.args.has ps = true := by
  obtain ⟨m, hm, hcl, ho⟩ := hc
  have hk := onClass_sound h hr hn hm hcl
  let given := flags.filter c.args.has
  have hgm : ∀ k, k ∈ given ↔ k ∈ flags ∧ c.args.has k = true := fun k => List.mem_filter
  have hk := List.all_eq_true.1 hk given (List.mem_sublists.2 List.filter_sublist)
  rw [Bool.or_eq_true] at hk
  have hall : given.all (params r.cfg).contains = true := by
    refine List.all_eq_true.2 fun k hk => ?_
    simpa using v.known k (Dict.has_iff.1 ((hgm k).1 hk).2)
  have hk := hk.resolve_left (by simp only [hall]; simp)
  have hform : ok r.name given.contains = ok r.name c.args.has := by
    refine hf _ _ _ fun k hk => ?_
    rw [Bool.eq_iff_iff, List.contains_iff_mem, hgm]
    exact ⟨fun h => h.2, fun h => ⟨hk, h⟩⟩
  rw [hform] at hk
  have hs : ∀ k ∈ given ++ required r.name, k ∈ c.args.keys := by
    intro k hk
    rcases List.mem_append.1 hk with hk | hk
    · exact Dict.has_iff.1 ((hgm k).1 hk).2
    · exact v.complete k hk
  have hd : ∀ k ∈ flags.filter (!given.contains ·), c.args.has k = false := by
    intro k hk
    obtain ⟨h1, h2⟩ := List.mem_filter.1 hk
    rw [← Bool.not_eq_true]
    intro h3
    have := (hgm k).2 ⟨h1, h3⟩
    simp [this] at h2
  have := check_sound (P := fun o => ∀ ps, o = .code ps → ok r.name c.args.has ps = true) (c := c) v.api
    (fun k hk => by simp at hk) (by simp) (by simp)
    (fun a s qs hrel hfin w hw => by
      unfold emitOut at hw
      split at hw
      · next x hx =>
        simp only [Out.code.injEq] at hw
        subst hw
        simp only [piecesFin] at hfin
        split at hfin
        · next u hu =>
          rw [← v.api] at hu
          rw [valAll_eval hrel hu] at hx
          simp only [Option.some.injEq] at hx
          subst hx
          exact hfin
        · simp at hfin
      · simp at hw)
    (m.2 r.name r.cfg) (Rel.denyAll hd (Rel.start v.wf (params_nodup hr hm hcl) v.known hs)) hk
  exact this ps ho

/-- The code is this formula. -/
def isForm (want : E) (ps : List Piece) : Bool :=
  match expr ps with
  | some e => bare e == want
  | none => false

def formOk (flags : List Str) (form : Str → (Str → Bool) → E) : Str → Cfg → K → Bool :=
  piecesOk flags fun n h => isForm (form n h)

theorem form_sound {cls : Str} {flags : List Str} {form : Str → (Str → Bool) → E}
    (h : onClass cls (formOk flags form) = true)
    (hf : ∀ n p q, (∀ k ∈ flags, p k = q k) → form n p = form n q) {r : Data.Raw}
    (hr : r ∈ Data.apiTable) (hn : r.class = cls) {c : Call} (v : Valid r c) {ps : List Piece}
    (hc : Converts r c (.code ps)) : ∃ e, expr ps = some e ∧ bare e = form r.name c.args.has := by
  have := pieces_sound h (fun n p q hpq => by rw [hf n p q hpq]) hr hn v hc
  simp only [isForm] at this
  split at this
  · next e he => exact ⟨e, he, by simpa using this⟩
  · simp at this

open Verif.Spec.Floats in
theorem value_bare (rd : Rd) (ρ : Env) (e : E) : value rd ρ e = value rd ρ (bare e) := by
  have hp : ∀ e, value rd ρ e = value rd ρ (plus e) := by
    intro e
    cases e with
    | call2 f a key b =>
      simp only [plus]
      split
      · next h =>
        rw [h.1, h.2, value, value, if_neg (by decide), if_pos (by decide)]
      · rfl
    | _ => rfl
  cases e with
  | call2 f a key b =>
    simp only [bare]
    rw [← hp]
    split
    · next h => rw [h, value, if_pos (by decide)]
    · rfl
  | _ => rfl

open Verif.Spec.Floats in
/-- The value of the code is the value of the formula. -/
theorem form_computes {cls : Str} {flags : List Str} {form : Str → (Str → Bool) → E}
    (h : onClass cls (formOk flags form) = true)
    (hf : ∀ n p q, (∀ k ∈ flags, p k = q k) → form n p = form n q) {r : Data.Raw}
    (hr : r ∈ Data.apiTable) (hn : r.class = cls) {c : Call} (v : Valid r c) {ps : List Piece}
    (hc : Converts r c (.code ps)) (rd : Rd) (ρ : Env) {x : Num} :
    Computes rd ρ ps x ↔ value rd ρ (form r.name c.args.has) = some x := by
  obtain ⟨e, he, hb⟩ := form_sound h hf hr hn v hc
  rw [← hb, ← value_bare]
  constructor
  · rintro ⟨e', he', hv⟩
    rw [he] at he'
    simp only [Option.some.injEq] at he'
    rw [he', hv]
  · exact fun hv => ⟨e, he, hv⟩

/-! ## The formulas -/

def inputE (h : Str → Bool) : E := .leaf (if h py"input" then .user py"input" else .recv)

def argE (k : Str) : E := .leaf (.user k)

/-- An argument with the default 1. -/
def orOne (k : Str) (h : Str → Bool) : E := if h k then argE k else .lit 1

/-- The matchers with a formula. -/
def forms : List (Str × List Str × (Str → (Str → Bool) → E)) :=
  [(py"ErfCMatcher", [py"input"], fun _ h => .sub (.lit 1) (.call py"paddle.erf" (inputE h))),
   (py"ErfC_Matcher", [py"input"], fun _ h => .method (.method (.call py"paddle.erf_" (inputE h)) py"multiply_"
      (.call py"paddle.to_tensor" (.neg (.lit 1)))) py"add_" (.call py"paddle.to_tensor" (.lit 1))),
   (py"SpecialErfcxMatcher", [], fun _ _ => .mul (.call py"paddle.exp" (.pow (argE py"input") (.lit 2)))
      (.sub (.lit 1) (.call py"paddle.erf" (argE py"input")))),
   (py"XLogYMatcher", [py"input"], fun _ h => .mul (inputE h)
      (.call py"paddle.log" (.call py"paddle.to_tensor" (argE py"other")))),
   (py"XLogY_Matcher", [py"input"], fun _ h => .method (inputE h) py"multiply_"
      (.call py"paddle.log" (.call py"paddle.to_tensor" (argE py"other")))),
   (py"SpecialXLog1pYMatcher", [], fun _ _ => .mul (argE py"input")
      (.call py"paddle.log1p" (.call py"paddle.to_tensor" (argE py"other")))),
   (py"Exp2Matcher", [], fun _ _ => .pow (.lit 2) (argE py"input")),
   (py"ExpitMatcher", [], fun _ _ => .div (.call py"paddle.exp" (argE py"input"))
      (.add (.lit 1) (.call py"paddle.exp" (argE py"input")))),
   (py"LogAddExp2Matcher", [py"input"], fun _ h => .call py"paddle.log2"
      (.add (.pow (.lit 2) (inputE h)) (.pow (.lit 2) (argE py"other")))),
   (py"SpecialNdtrMatcher", [], fun _ _ => .div (.sub (.call py"paddle.erf" (.div (argE py"input")
      (.call py"paddle.sqrt" (.call py"paddle.to_tensor" (.lit 2)))))
      (.call py"paddle.erf" (.call py"paddle.to_tensor" (.neg .infinity)))) (.lit 2)),
   (py"SpecialNdtriMatcher", [], fun _ _ => .mul (.pow (.lit 2) (.div (.lit 1) (.lit 2)))
      (.call py"paddle.erfinv" (.sub (.mul (.lit 2) (argE py"input")) (.lit 1)))),
   (py"AddCMulMatcher", [py"input", py"value"], fun _ h => .add (inputE h)
      (.mul (.mul (orOne py"value" h) (argE py"tensor1")) (argE py"tensor2"))),
   (py"AddCMul_Matcher", [py"value"], fun _ h => .method (.leaf .recv) py"add_"
      (.mul (.mul (orOne py"value" h) (argE py"tensor1")) (argE py"tensor2"))),
   (py"AddCDivMatcher", [py"input", py"value"], fun _ h => .add (inputE h)
      (.div (.mul (orOne py"value" h) (argE py"tensor1")) (argE py"tensor2"))),
   (py"AddMRMatcher", [py"beta", py"alpha"], fun n h => .add (.mul (orOne py"beta" h) (.leaf .recv)) (.mul (orOne py"alpha" h)
      (if n = py"torch.Tensor.addmv" then .call2 py"paddle.mm" (argE py"mat") [] (argE py"vec")
       else .call2 py"paddle.outer" (argE py"vec1") [] (argE py"vec2")))),
   (py"AddBmmMatcher", [py"input", py"beta", py"alpha"], fun _ h => .add (.mul (orOne py"beta" h) (inputE h))
      (.mul (orOne py"alpha" h)
        (.call2 py"paddle.sum" (.call2 py"paddle.bmm" (argE py"batch1") [] (argE py"batch2")) py"axis" (.lit 0)))),
   (py"AddBmm_Matcher", [py"input", py"beta", py"alpha"], fun _ h => .method (.method (inputE h) py"multiply_"
      (.call2 py"paddle.to_tensor" (orOne py"beta" h) py"dtype" (.attr (inputE h) py"dtype"))) py"add_"
      (.mul (orOne py"alpha" h)
        (.call2 py"paddle.sum" (.call2 py"paddle.bmm" (argE py"batch1") [] (argE py"batch2")) py"axis" (.lit 0))))]

set_option maxRecDepth 100000 in
theorem forms_table : (forms.all fun f => onClass f.1 (formOk f.2.1 f.2.2)) = true := by decide +kernel

end Verif.Template
