import Verif.Spec.Dispatch
import Verif.Props.Count

/-!
# C27, C32, C33, C35: recognising names
-/

namespace Verif.Dispatch
open Verif

/-! ## Lemmas -/

theorem splitOn_append_sep (c : Char) (p s : Str) :
    Str.splitOn c (p ++ c :: s) = Str.splitOn c p ++ Str.splitOn c s := by
  have h1 : p = Str.join [c] (Str.splitOn c p) := (Str.join_splitOn c p).symm
  have hd := fun q hq => Str.not_mem_of_mem_splitOn (c := c) (s := p) (p := q) hq
  have hne := Str.splitOn_ne_nil c p
  generalize Str.splitOn c p = ps at h1 hd hne
  subst h1
  induction ps with
  | nil => exact absurd rfl hne
  | cons q ps ih =>
    cases ps with
    | nil => simpa using Str.splitOn_append_cons (hd q (by simp))
    | cons r ps =>
      rw [Str.join_cons_cons]
      simp only [List.append_assoc, List.cons_append, List.nil_append]
      rw [Str.splitOn_append_cons (hd q (by simp)), ih (fun q hq => hd q (List.mem_cons_of_mem _ hq)) (by simp)]
      rfl

theorem join_append (sep : Str) (a b : List Str) (ha : a ≠ []) (hb : b ≠ []) :
    Str.join sep (a ++ b) = Str.join sep a ++ sep ++ Str.join sep b := by
  induction a with
  | nil => exact absurd rfl ha
  | cons x a ih =>
    cases a with
    | nil => simp [Str.join_cons sep x b hb]
    | cons y a =>
      have := ih (by simp)
      simp only [List.cons_append] at this ⊢
      rw [Str.join_cons_cons, Str.join_cons_cons, this]
      simp

theorem fullAttrStrict_attr (f : File) (black : List Str) (hit : Str → Str → Bool) (e : Expr) (a : Str)
    (ht : f.torch ≠ []) (ha : a ∉ black) :
    fullAttrStrict f black hit (.attr e a) = fullAttrStrict f black hit e ++ py"." ++ a := by
  simp [fullAttrStrict, ht, ha]

theorem fullAttrStrict_dotted (f : File) (black : List Str) (hit : Str → Str → Bool) (a : Str) (rest : List Str)
    (ht : f.torch ≠ []) (ha : a ∉ black) (hp : a ≠ py"paddle") (hr : ∀ b ∈ rest, b ∉ black) :
    fullAttrStrict f black hit (dotted a rest) = dottedText a rest := by
  have go : ∀ (rest : List Str) (e : Expr) (t : List Str), t ≠ [] → (∀ b ∈ rest, b ∉ black) →
      fullAttrStrict f black hit e = Str.join py"." t →
      fullAttrStrict f black hit (rest.foldl Expr.attr e) = Str.join py"." (t ++ rest) := by
    intro rest
    induction rest with
    | nil => intro e t _ _ h; simpa using h
    | cons b rest ih =>
      intro e t hne hb h
      rw [List.foldl_cons, ih (.attr e b) (t ++ [b]) (by simp) (fun x hx => hb x (List.mem_cons_of_mem _ hx))]
      · simp
      · rw [fullAttrStrict_attr f black hit e b ht (hb b (by simp)), h,
          join_append _ _ _ hne (by simp)]
        simp
  have := go rest (.name a) [a] (by simp) hr (by
    simp only [fullAttrStrict, if_neg ht, if_neg ha, if_neg hp]; simp)
  exact this

theorem splitOn_dottedText (a : Str) (rest : List Str) (ha : Ident a) (hr : ∀ b ∈ rest, Ident b) :
    Str.splitOn '.' (dottedText a rest) = a :: rest :=
  Str.splitOn_join (by simp) (by
    intro p hp
    rcases List.mem_cons.1 hp with rfl | hp
    · exact ha
    · exact hr p hp)

/-! ## C27 -/

/-- **C27, partial: resolution.** In a file that imports a torch package, a use `a.b.c` whose components are none of the
names imported from other packages (or `ndarray`, `args`, `arg`) and that does not begin with `paddle` is looked up under
its own text, with the first component replaced by what the imports bound it to, if it was bound by a torch import.
Missing: names that collide with the converter's own four keys, see `C27_reserved_negative`. That the last import of a
name wins is `C27_last_import_wins` in the import pass. -/
theorem C27_names_resolve_partial (f : File) (hit : Str → Str → Bool) (a : Str) (rest : List Str)
    (ht : f.torch ≠ []) (ha : Ident a) (hr : ∀ b ∈ rest, Ident b)
    (hb : ∀ b ∈ a :: rest, b ∉ f.other ∧ b ≠ py"ndarray" ∧ b ≠ py"args" ∧ b ≠ py"arg") (hp : a ≠ py"paddle")
    (hres : a ≠ py"torch_packages" ∧ a ≠ py"may_torch_packages" ∧ a ≠ py"other_packages" ∧
      a ≠ py"api_alias_name_map") :
    replaceModule f (fullAttrStrict f (blackList f) hit (dotted a rest)) =
      .ok (match f.names.get? a with
        | some m => dottedText m rest
        | none => dottedText a rest) := by
  have hblack : ∀ b ∈ a :: rest, b ∉ blackList f := by
    intro b hb1
    have := hb b hb1
    simp [blackList, this]
  rw [fullAttrStrict_dotted f _ hit a rest ht (hblack a (by simp)) hp
    (fun b hb1 => hblack b (List.mem_cons_of_mem _ hb1))]
  have hnr : a ∉ reservedKeys := by
    obtain ⟨h1, h2, h3, h4⟩ := hres
    simp only [reservedKeys, List.mem_cons, List.not_mem_nil, or_false, not_or]
    exact ⟨h3, h1, h2, h4⟩
  simp only [replaceModule, splitOn_dottedText a rest ha hr, List.headD_cons, if_neg hnr, List.drop_succ_cons, List.drop_zero]
  cases f.names.get? a <;> rfl

/-- C27 fails for a variable that has the name of one of the four keys under which the converter keeps its own sets in
the same dictionary: the run ends with a `TypeError`. -/
theorem C27_reserved_negative : ∃ (f : File) (hit : Str → Str → Bool) (a b : Str), f.torch ≠ [] ∧
    f.names.get? a = none ∧
    replaceModule f (fullAttrStrict f (blackList f) hit (dotted a [b])) = .error .typeError :=
  ⟨exFile, noHit, py"torch_packages", py"append", by decide, by decide, by decide⟩

example : replaceModule exFile (fullAttrStrict exFile (blackList exFile) noHit (dotted py"nn" [py"functional", py"relu"]))
    = .ok py"torch.nn.functional.relu" := by decide
example : exFile.torch ≠ [] ∧ Ident py"nn" ∧ (∀ b ∈ [py"nn", py"functional", py"relu"], b ∉ exFile.other ∧
    b ≠ py"ndarray" ∧ b ≠ py"args" ∧ b ≠ py"arg") := by
  refine ⟨by decide, by unfold Ident; decide, by decide⟩

/-- A blacklisted component hides everything before it: `np.x.y` is `NonTorchClass.y`. Every expression that contains the
name of another package ends up with a text that begins with `NonTorchClass`. -/
theorem C27_other_package_hidden (f : File) (hit : Str → Str → Bool) (a : Str) (rest : List Str) (ha : a ∈ f.other) :
    ∃ t, fullAttrStrict f (blackList f) hit (dotted a rest) = nonTorch ++ t := by
  have go : ∀ (rest : List Str) (e : Expr), (∃ t, fullAttrStrict f (blackList f) hit e = nonTorch ++ t) →
      ∃ t, fullAttrStrict f (blackList f) hit (rest.foldl Expr.attr e) = nonTorch ++ t := by
    intro rest
    induction rest with
    | nil => intro e h; exact h
    | cons b rest ih =>
      intro e ⟨t, h⟩
      apply ih
      simp only [fullAttrStrict]
      split
      · exact ⟨[], by simp⟩
      · split
        · exact ⟨[], by simp⟩
        · exact ⟨t ++ py"." ++ b, by rw [h]; simp⟩
  apply go
  refine ⟨[], ?_⟩
  have : a ∈ blackList f := by simp [blackList, ha]
  simp [fullAttrStrict, this]

/-! ## C32 -/

theorem fullAttrStrict_no_torch (f : File) (black : List Str) (hit : Str → Str → Bool) (e : Expr) (h : f.torch = []) :
    fullAttrStrict f black hit e = nonTorch := by
  cases e <;> simp [fullAttrStrict, h]

/-- **C32.** In a file without a torch import nothing happens at any call or attribute, whatever the expression, the
matchers and the tables are: no counter changes and the node stays. The two side conditions say that nobody calls a
module or an API `NonTorchClass`. -/
theorem C32_no_torch_import (T : Tables) (f : File) (hit : Str → Str → Bool) (o : Oracle) (e : Expr) (p : Parent)
    (s : Counts) (h : f.torch = []) (hn : f.names.get? py"NonTorchClass" = none)
    (hT : ¬ Listed T py"NonTorchClass") :
    visitCall T f hit o e p s = .ok (s, .kept) ∧ visitAttr T f hit o e p s = .ok (s, .kept) := by
  have hfull : replaceModule f (fullAttrStrict f (blackList f) hit e) = .ok nonTorch := by
    rw [fullAttrStrict_no_torch f _ hit e h]
    have h1 : Str.splitOn '.' nonTorch = [nonTorch] := by decide
    have h2 : nonTorch ∉ reservedKeys := by decide
    have h3 : f.names.get? nonTorch = none := hn
    simp only [replaceModule, h1, List.headD_cons, if_neg h2, h3]
  have hs : startWithTorch f nonTorch = false := by simp [startWithTorch, h]
  have hi : inApi T nonTorch = false := by
    rw [Bool.eq_false_iff]
    intro hc
    apply hT
    simp only [inApi, Bool.or_eq_true, Dict.has_iff, List.any_eq_true, canonical] at hc
    refine ⟨(T.aliases.get? nonTorch).getD nonTorch, ?_, hc⟩
    show T.aliases.get? nonTorch = _ ∨ (T.aliases.get? nonTorch = _ ∧ _)
    cases T.aliases.get? nonTorch with
    | none => right; exact ⟨rfl, rfl⟩
    | some c => left; rfl
  have hc : Str.contains nonTorch nonTorch = true := by decide
  constructor
  · unfold visitCall
    rw [hfull]
    have : decideCall T f nonTorch = .leave := by simp [decideCall, hs, hi, hc]
    simp [bind, Except.bind, this]; rfl
  · unfold visitAttr
    rw [hfull]
    have : decideAttr T f nonTorch = .leave := by simp [decideAttr, hs, hc]
    simp [bind, Except.bind, this]; rfl

example : ({} : File).torch = [] ∧ ({} : File).names.get? py"NonTorchClass" = none ∧
    ¬ Listed exTables py"NonTorchClass" := by
  refine ⟨rfl, rfl, ?_⟩
  rintro ⟨c, hc, h⟩
  have : c = py"NonTorchClass" := by
    rcases hc with hc | ⟨_, rfl⟩
    · revert hc; simp [exTables, Dict.get?]
    · rfl
  subst this
  rcases h with h | ⟨w, hw, _⟩
  · revert h; decide
  · simp [exTables] at hw

/-- The same holds, with a torch import, for every use that begins with the name of another package: `np.x.abs()`. -/
theorem C32_other_package (T : Tables) (f : File) (full : Str) (t : Str) (hfull : full = nonTorch ++ t)
    (hs : startWithTorch f full = false) (hi : ¬ Listed T full) :
    decideCall T f full = .leave ∧ decideAttr T f full = .leave := by
  have hi : inApi T full = false := by
    rw [Bool.eq_false_iff]
    intro hc
    apply hi
    simp only [inApi, Bool.or_eq_true, Dict.has_iff, List.any_eq_true, canonical] at hc
    refine ⟨(T.aliases.get? full).getD full, ?_, hc⟩
    cases T.aliases.get? full with
    | none => right; exact ⟨rfl, rfl⟩
    | some c => left; rfl
  have hc : Str.contains full nonTorch = true := Str.contains_iff.2 ⟨[], t, by simp [hfull]⟩
  constructor
  · simp only [decideCall, hs, hi, hc]; rfl
  · simp only [decideAttr, hs, hc]; rfl

/-! ## C33 -/

/-- **C33.** A name counts as one of a torch package exactly when the components of an imported torch package are its
first components and more follow. -/
theorem C33_whole_components (f : File) (api : Str) :
    startWithTorch f api = true ↔
      ∃ p ∈ f.torch, ∃ rest ≠ [], Str.splitOn '.' api = Str.splitOn '.' p ++ rest := by
  simp only [startWithTorch, List.any_eq_true, Str.startsWith_iff]
  constructor
  · rintro ⟨p, hp, b, hb⟩
    refine ⟨p, hp, Str.splitOn '.' b, Str.splitOn_ne_nil _ _, ?_⟩
    rw [hb]
    simp only [List.append_assoc, List.singleton_append]
    exact splitOn_append_sep '.' p b
  · rintro ⟨p, hp, rest, hne, h⟩
    refine ⟨p, hp, Str.join py"." rest, ?_⟩
    rw [← Str.join_splitOn '.' api, h, join_append _ _ _ (Str.splitOn_ne_nil _ _) hne, Str.join_splitOn]

example : startWithTorch exFile py"torch.nn.Linear" = true ∧ startWithTorch exFile py"torchvision.ops" = false ∧
    startWithTorch exFile py"torch" = false := by decide

/-! ## C35 -/

theorem listed_iff (T : Tables) (api : Str) : inApi T api = true ↔ Listed T api := by
  simp only [inApi, Bool.or_eq_true, Dict.has_iff, List.any_eq_true, canonical, Listed]
  constructor
  · intro h
    refine ⟨(T.aliases.get? api).getD api, ?_, h⟩
    cases T.aliases.get? api with
    | none => right; exact ⟨rfl, rfl⟩
    | some c => left; rfl
  · rintro ⟨c, hc, h⟩
    rcases hc with hc | ⟨hc, rfl⟩
    · simpa [hc] using h
    · simpa [hc] using h

/-- The flags `is_tensor_api` and so on of `visit_Call`. -/
def flag (full : Str) (c : Cls) : Bool :=
  let self := Str.contains full py"self."
  let long := decide ((Str.splitOn '.' full).length > 2)
  let two := decide ((Str.splitOn '.' full).length = 2)
  match c with
  | .tensor => (long && (self || Str.contains full py".T." || Str.contains full py".weight."
    || Str.contains full py".bias.")) || (two && !self)
  | .module | .optimizer => (long && self) || two
  | .ctx | .distribution => two && !self

/-- The name of the member `m` of a class, for a call `full(..)` that ends with `.m`. -/
def memberOf (full : Str) (c : Cls) : Str := c.name ++ py"." ++ (Str.splitOn '.' full).getLastD []

theorem candidates_eq (full : Str) : callCandidates full = (Cls.order.filter (flag full)).map (memberOf full) := by
  have key : ∀ (fl : Cls → Bool) (g : Cls → Str),
      (Cls.order.filter fl).map g =
        (if fl .tensor then [g .tensor] else []) ++ (if fl .module then [g .module] else []) ++
        (if fl .optimizer then [g .optimizer] else []) ++ (if fl .ctx then [g .ctx] else []) ++
        (if fl .distribution then [g .distribution] else []) := by
    intro fl g
    simp only [Cls.order, List.filter_cons, List.filter_nil]
    cases fl .tensor <;> cases fl .module <;> cases fl .optimizer <;> cases fl .ctx <;> cases fl .distribution <;> rfl
  rw [key]
  rfl

theorem flag_iff (full : Str) (c : Cls) :
    flag full c = true ↔ Admissible full (Str.splitOn '.' full).length c := by
  have occ : ∀ s, Occurs s full ↔ (Str.contains full s = true) := fun s => Str.contains_iff.symm
  simp only [flag, Admissible, occ]
  generalize (Str.splitOn '.' full).length = n
  generalize Str.contains full py"self." = b1
  generalize Str.contains full py".T." = b2
  generalize Str.contains full py".weight." = b3
  generalize Str.contains full py".bias." = b4
  by_cases h2 : n = 2
  · subst h2
    cases b1 <;> cases c <;> simp
  · by_cases h3 : n > 2
    · simp only [h2, h3, decide_false, decide_true]
      cases b1 <;> cases b2 <;> cases b3 <;> cases b4 <;> cases c <;> simp
    · cases c <;> simp [h2, h3]

theorem find_candidates (T : Tables) (full : Str) :
    (callCandidates full).find? (inApi T) =
      (Cls.order.find? fun c => flag full c && inApi T (memberOf full c)).map (memberOf full) := by
  rw [candidates_eq, List.find?_map, List.find?_filter]
  congr 2
  funext c
  simp only [Function.comp_def]
  cases flag full c <;> simp

/-- **C35, first part.** A call is taken for one of a torch package exactly when its name belongs to an imported torch
package (C33) or is in the call table. -/
theorem C35_package_call (T : Tables) (f : File) (full api : Str) :
    decideCall T f full = .package api ↔ api = full ∧ (startWithTorch f full = true ∨ Listed T full) := by
  rw [← listed_iff, ← Bool.or_eq_true]
  unfold decideCall
  by_cases h : (startWithTorch f full || inApi T full) = true
  · rw [if_pos h]
    simp only [h, and_true, Decision.package.injEq]; exact eq_comm
  · rw [if_neg h]
    simp only [eq_false h, and_false, iff_false]
    split
    · simp
    · split <;> simp

/-- **C35.** Any other call `recv.m(..)` is attributed to the class `c` exactly when the receiver is not known to be foreign,
the shape of the name admits `c`, `c`'s member `m` is in the call table, and that is so for no class tried earlier; the
order is Tensor, Module, Optimizer, FunctionCtx, Distribution. -/
theorem C35_class_call (T : Tables) (f : File) (full api : Str) :
    decideCall T f full = .cls api ↔
      ¬ (startWithTorch f full = true ∨ Listed T full) ∧ ¬ Occurs py"NonTorchClass" full ∧
      ∃ earlier c later, [Cls.tensor, .module, .optimizer, .ctx, .distribution] = earlier ++ c :: later ∧
        api = c.name ++ py"." ++ (Str.splitOn '.' full).getLastD [] ∧
        Admissible full (Str.splitOn '.' full).length c ∧ Listed T api ∧
        ∀ c' ∈ earlier, ¬ (Admissible full (Str.splitOn '.' full).length c' ∧
          Listed T (c'.name ++ py"." ++ (Str.splitOn '.' full).getLastD [])) := by
  rw [← listed_iff, ← Bool.or_eq_true, show Occurs py"NonTorchClass" full ↔ Str.contains full nonTorch = true from
    Str.contains_iff.symm]
  unfold decideCall
  by_cases h : (startWithTorch f full || inApi T full) = true
  · rw [if_pos h]; simp [h]
  · rw [if_neg h]
    by_cases hn : Str.contains full nonTorch = true
    · rw [if_pos hn]; simp [hn]
    · rw [if_neg hn, find_candidates]
      simp only [eq_false h, not_false_eq_true, true_and, eq_false hn]
      simp only [← flag_iff, ← listed_iff]
      cases hf : Cls.order.find? fun c => flag full c && inApi T (memberOf full c) with
      | none =>
        simp only [Option.map_none]
        constructor
        · intro hx; simp at hx
        · rintro ⟨e, c, l, ho, rfl, h1, h2, h3⟩
          have := List.find?_eq_none.1 hf c (by rw [Cls.order, ho]; simp)
          simp only [h1, Bool.true_and] at this
          exact absurd h2 this
      | some c =>
        obtain ⟨hc, e, l, ho, he⟩ := List.find?_eq_some_iff_append.1 hf
        simp only [Bool.and_eq_true] at hc
        simp only [Option.map_some, Decision.cls.injEq]
        constructor
        · rintro rfl
          refine ⟨e, c, l, ho, rfl, hc.1, hc.2, ?_⟩
          intro c' hc' hh
          have := he c' hc'
          rw [Bool.not_eq_true', Bool.and_eq_false_iff] at this
          rcases this with this | this
          · rw [hh.1] at this; simp at this
          · have h4 : inApi T (memberOf full c') = true := hh.2
            rw [h4] at this; simp at this
        · rintro ⟨e', c', l', ho', rfl, h1, h2, h3⟩
          have hfind : Cls.order.find? (fun c => flag full c && inApi T (memberOf full c)) = some c' := by
            apply List.find?_eq_some_iff_append.2
            refine ⟨by simp only [h1, Bool.true_and]; exact h2, e', l', ho', ?_⟩
            intro d hd
            rw [Bool.not_eq_true', Bool.and_eq_false_iff]
            by_cases hd1 : flag full d = true
            · right
              rw [Bool.eq_false_iff]
              exact fun hd2 => h3 d hd ⟨hd1, hd2⟩
            · left; simpa using hd1
          rw [hf] at hfind
          simp only [Option.some.injEq] at hfind
          rw [hfind]; rfl

example : decideCall exTables exFile py"x.size" = .cls py"torch.Tensor.size" ∧
    decideCall exTables exFile py"self.size" = .leave ∧
    decideCall exTables exFile py"self.apply" = .cls py"torch.nn.Module.apply" ∧
    decideCall exTables exFile py"self.x.size" = .cls py"torch.Tensor.size" ∧
    decideCall exTables exFile py"a.b.size" = .leave ∧
    decideCall exTables exFile py"a.weight.size" = .cls py"torch.Tensor.size" ∧
    decideCall exTables exFile py"NonTorchClass.size" = .leave := by decide +kernel

theorem listedAttr_iff (T : Tables) (api : Str) : inAttr T api = true ↔ ListedAttr T api := by
  simp only [inAttr, Dict.has_iff, canonical, ListedAttr]
  constructor
  · intro h
    refine ⟨(T.aliases.get? api).getD api, ?_, h⟩
    cases T.aliases.get? api with
    | none => right; exact ⟨rfl, rfl⟩
    | some c => left; rfl
  · rintro ⟨c, hc, h⟩
    rcases hc with hc | ⟨hc, rfl⟩
    · simpa [hc] using h
    · simpa [hc] using h

/-- **C35, attributes.** An attribute is taken for one of a torch package exactly when its name belongs to an imported torch package. -/
theorem C35_package_attribute (T : Tables) (f : File) (full api : Str) :
    decideAttr T f full = .package api ↔ api = full ∧ startWithTorch f full = true := by
  unfold decideAttr
  by_cases h : startWithTorch f full = true
  · rw [if_pos h]
    simp only [h, and_true, Decision.package.injEq]; exact eq_comm
  · rw [if_neg h]
    simp only [eq_false h, and_false, iff_false]
    split
    · simp
    · split <;> simp

/-- **C35, attributes.** Any other attribute `recv.a` is attributed to a class exactly when the receiver is not known to be foreign and the shape of the
name admits the class, whose member `a` is in the attribute table; `torch.Tensor` is tried before `FunctionCtx`. -/
theorem C35_class_attribute (T : Tables) (f : File) (full api : Str) :
    decideAttr T f full = .cls api ↔
      startWithTorch f full ≠ true ∧ ¬ Occurs py"NonTorchClass" full ∧
      ∃ c, api = c.name ++ py"." ++ (Str.splitOn '.' full).getLastD [] ∧
        AdmissibleAttr full (Str.splitOn '.' full).length c ∧ ListedAttr T api ∧
        (c = .ctx → ¬ (AdmissibleAttr full (Str.splitOn '.' full).length .tensor ∧
          ListedAttr T (Cls.tensor.name ++ py"." ++ (Str.splitOn '.' full).getLastD []))) := by
  have occ : ∀ s, Occurs s full ↔ (Str.contains full s = true) := fun s => Str.contains_iff.symm
  obtain ⟨a, b, ha, hb, hc⟩ : ∃ a b : Bool, (a = true ↔ AdmissibleAttr full (Str.splitOn '.' full).length .tensor) ∧
      (b = true ↔ AdmissibleAttr full (Str.splitOn '.' full).length .ctx) ∧
      attrCandidates full = (if a then [Cls.tensor.name ++ py"." ++ (Str.splitOn '.' full).getLastD []] else []) ++
        (if b then [Cls.ctx.name ++ py"." ++ (Str.splitOn '.' full).getLastD []] else []) := by
    refine ⟨_, _, ?_, ?_, rfl⟩
    · simp only [AdmissibleAttr, occ, List.any_cons, List.any_nil, Bool.or_eq_true, Bool.and_eq_true, decide_eq_true_iff, Bool.not_eq_true',
        true_and, true_or, and_true, Bool.or_false, Bool.not_eq_true]
      constructor
      · rintro (⟨h1, h2⟩ | h)
        · exact Or.inr ⟨h1, h2⟩
        · exact Or.inl h
      · rintro (h | ⟨h1, h2⟩)
        · exact Or.inr h
        · exact Or.inl ⟨h1, h2⟩
    · simp only [AdmissibleAttr, occ, Bool.and_eq_true, decide_eq_true_iff, Bool.not_eq_true', reduceCtorEq, false_and, and_false, or_true, or_false,
        and_true, Bool.not_eq_true]
  have hother : ∀ c, AdmissibleAttr full (Str.splitOn '.' full).length c → c = .tensor ∨ c = .ctx := by
    rintro c (⟨-, -, h⟩ | ⟨-, h, -⟩)
    · exact h
    · exact Or.inl h
  generalize hn : (Str.splitOn '.' full).length = n at *
  generalize hm : (Str.splitOn '.' full).getLastD [] = m at *
  generalize et : Cls.tensor.name ++ py"." ++ m = t at *
  generalize ex : Cls.ctx.name ++ py"." ++ m = x at *
  rw [show Occurs py"NonTorchClass" full ↔ Str.contains full nonTorch = true from Str.contains_iff.symm]
  unfold decideAttr
  by_cases h : startWithTorch f full = true
  · rw [if_pos h]; simp [h]
  · rw [if_neg h]
    by_cases hn : Str.contains full nonTorch = true
    · rw [if_pos hn]; simp [hn]
    · rw [if_neg hn, hc]
      simp only [ne_eq, eq_false h, eq_false hn, not_false_eq_true, true_and]
      simp only [← listedAttr_iff]
      constructor
      · intro he
        cases ha' : a with
        | true =>
          cases hit : inAttr T t with
          | true =>
            simp only [ha', if_true, List.cons_append, List.find?_cons, hit, Decision.cls.injEq] at he
            exact ⟨.tensor, he.symm.trans et.symm, ha.1 ha', he ▸ hit, fun e => by cases e⟩
          | false =>
            cases hb' : b with
            | true =>
              cases hix : inAttr T x with
              | true =>
                simp only [ha', hb', if_true, List.cons_append, List.nil_append, List.find?_cons, hit, hix, Decision.cls.injEq] at he
                exact ⟨.ctx, he.symm.trans ex.symm, hb.1 hb', he ▸ hix, fun _ hx => by simp at hx⟩
              | false => simp [ha', hb', hit, hix] at he
            | false => simp [ha', hb', hit] at he
        | false =>
          cases hb' : b with
          | true =>
            cases hix : inAttr T x with
            | true =>
              simp only [ha', hb', if_true, List.nil_append, List.find?_cons, hix, Decision.cls.injEq, Bool.false_eq_true, if_false] at he
              exact ⟨.ctx, he.symm.trans ex.symm, hb.1 hb', he ▸ hix, fun _ hx => by rw [← ha, ha'] at hx; simp at hx⟩
            | false => simp [ha', hb', hix] at he
          | false => simp [ha', hb'] at he
      · rintro ⟨c, rfl, h1, h2, h3⟩
        rcases hother c h1 with rfl | rfl
        · rw [et] at h2 ⊢
          simp [ha.2 h1, h2]
        · have h3 := h3 rfl
          rw [ex] at h2 ⊢
          cases ha' : a with
          | true =>
            have : inAttr T t = false := by
              rw [Bool.eq_false_iff]; exact fun hx => h3 ⟨ha.1 ha', hx⟩
            simp only [hb.2 h1, if_true, List.cons_append, List.nil_append, List.find?_cons, this, h2]
          | false => simp only [hb.2 h1, Bool.false_eq_true, if_true, if_false, List.nil_append, List.find?_cons, h2]

example : let T : Tables := { aliases := [], api := [], attr := [(py"torch.Tensor.device", {}), (py"torch.autograd.function.FunctionCtx.saved", {})], wild := [] }
    decideAttr T exFile py"x.data.device" = .cls py"torch.Tensor.device" ∧ decideAttr T exFile py"x.y.device" = .leave ∧
    decideAttr T exFile py"ctx.saved" = .cls py"torch.autograd.function.FunctionCtx.saved" ∧
    decideAttr T exFile py"self.device" = .leave := by decide +kernel

/-- The test for `self.` is textual: renaming the variable `x` to `myself` makes a tensor's method unrecognised, and the
call stays in the output unconverted and unmarked. -/
theorem C35_renaming_negative : ∃ (T : Tables) (f : File),
    decideCall T f py"x.size" = .cls py"torch.Tensor.size" ∧ decideCall T f py"myself.size" = .leave :=
  ⟨exTables, exFile, by decide +kernel, by decide +kernel⟩

/-! ## C20 again: what happens to the node goes with what is counted -/

/-- **C20, per step.** A call or attribute that is replaced or removed counts as one API found and one success; one that is
reported as not supported counts as found, not as success, and adds one to the table of unsupported APIs; one that is kept
without a report changes at most the success count together with the number found. -/
theorem C20_outcomes (T : Tables) (f : File) (hit : Str → Str → Bool) (o : Oracle) (e : Expr) (p : Parent) (s s' : Counts)
    (out : Out) (h : visitCall T f hit o e p s = .ok (s', out) ∨ visitAttr T f hit o e p s = .ok (s', out)) :
    Consistent s s' out := by
  have hbump : ∀ (d : Dict Str Int) k, (bump d k).values.sum = d.values.sum + 1 := total_bump
  have hfin : ∀ api report r b, finish api report r b (s.found api) = (s', out) →
    Consistent s s' out := by
    intro api report r b hf
    unfold finish at hf
    split at hf
    · split at hf
      · simp only [Prod.mk.injEq] at hf; obtain ⟨rfl, rfl⟩ := hf
        simp [Consistent, Counts.found, Counts.succeed]
      · simp only [Prod.mk.injEq] at hf; obtain ⟨rfl, rfl⟩ := hf
        simp [Consistent, Counts.found, Counts.unsupported, hbump]
    · simp only [Prod.mk.injEq] at hf; obtain ⟨rfl, rfl⟩ := hf
      simp [Consistent, Counts.found, Counts.misidentified]
    · simp only [Prod.mk.injEq] at hf; obtain ⟨rfl, rfl⟩ := hf
      simp [Consistent, Counts.found, Counts.succeed]
    · simp only [Prod.mk.injEq] at hf; obtain ⟨rfl, rfl⟩ := hf
      simp [Consistent, Counts.found, Counts.succeed]
    · simp only [Prod.mk.injEq] at hf; obtain ⟨rfl, rfl⟩ := hf
      simp [Consistent, Counts.found, Counts.unsupported, hbump]
  rcases h with h | h
  · unfold visitCall at h
    cases hr : replaceModule f (fullAttrStrict f (blackList f) hit e) with
    | error x => rw [hr] at h; simp [bind, Except.bind] at h
    | ok full =>
      rw [hr] at h
      simp only [bind, Except.bind] at h
      split at h
      · split at h
        · simp at h
        · simp only [pure, Except.pure, Except.ok.injEq] at h; exact hfin _ _ _ _ h
      · split at h
        · simp at h
        · simp only [pure, Except.pure, Except.ok.injEq] at h; exact hfin _ _ _ _ h
      · simp only [pure, Except.pure, Except.ok.injEq, Prod.mk.injEq] at h
        obtain ⟨rfl, rfl⟩ := h
        simp [Consistent]
  · have hpar : ∀ api, viaParent T o api (s.found api) = .ok (s', out) →
    Consistent s s' out := by
      intro api hv
      unfold viaParent at hv
      split at hv
      · split at hv
        · simp at hv
        · simp only [Except.ok.injEq, Prod.mk.injEq] at hv; obtain ⟨rfl, rfl⟩ := hv
          simp [Consistent, Counts.found, Counts.unsupported, hbump]
        · split at hv
          all_goals first
            | (simp at hv; done)
            | (simp only [Except.ok.injEq, Prod.mk.injEq] at hv; obtain ⟨rfl, rfl⟩ := hv
               simp [Consistent, Counts.found, Counts.succeed])
      · simp only [Except.ok.injEq, Prod.mk.injEq] at hv; obtain ⟨rfl, rfl⟩ := hv
        simp [Consistent, Counts.found, Counts.unsupported, hbump]
    unfold visitAttr at h
    cases hr : replaceModule f (fullAttrStrict f (blackList f) hit e) with
    | error x => rw [hr] at h; simp [bind, Except.bind] at h
    | ok full =>
      rw [hr] at h
      simp only [bind, Except.bind] at h
      split at h
      · split at h
        · simp at h
        · split at h
          · simp at h
          · split at h
            · simp at h
            · split at h
              · split at h
                · exact hpar _ h
                · simp only [pure, Except.pure, Except.ok.injEq, Prod.mk.injEq] at h; obtain ⟨rfl, rfl⟩ := h
                  simp [Consistent, Counts.found, Counts.succeed]
              · simp only [pure, Except.pure, Except.ok.injEq, Prod.mk.injEq] at h; obtain ⟨rfl, rfl⟩ := h
                simp [Consistent, Counts.found, Counts.misidentified]
              · simp only [pure, Except.pure, Except.ok.injEq, Prod.mk.injEq] at h; obtain ⟨rfl, rfl⟩ := h
                simp [Consistent, Counts.found, Counts.succeed]
              · simp only [pure, Except.pure, Except.ok.injEq, Prod.mk.injEq] at h; obtain ⟨rfl, rfl⟩ := h
                simp [Consistent, Counts.found, Counts.succeed]
              · exact hpar _ h
              · exact hpar _ h
      · split at h
        · simp at h
        · simp only [pure, Except.pure, Except.ok.injEq] at h; exact hfin _ _ _ _ h
      · simp only [pure, Except.pure, Except.ok.injEq, Prod.mk.injEq] at h
        obtain ⟨rfl, rfl⟩ := h
        simp [Consistent]

/-- **C20, what counts as a success.** A call is either left alone, with no counter changed, or the outcome and the
counters follow from what its matcher answered: nothing but an answer that could be used in full is a success. -/
theorem C20_success_deserved (T : Tables) (f : File) (hit : Str → Str → Bool) (o : Oracle) (e : Expr) (p : Parent)
    (s s' : Counts) (out : Out) (h : visitCall T f hit o e p s = .ok (s', out)) :
    (s' = s ∧ out = .kept) ∨
    ∃ api m, getMatcher T T.api api = .ok m ∧ Deserved (m.map o.nodes) (p = .expr) s s' out := by
  have hfin : ∀ api report r, finish api report r (p == .expr) (s.found api) = (s', out) →
      Deserved r (p = .expr) s s' out := by
    intro api report r hf
    have hb : (p == Parent.expr) = true ↔ p = .expr := by simp
    unfold finish at hf
    rcases r with _ | (_ | _ | _ | ⟨k, i⟩ | _)
    · simp only [Prod.mk.injEq] at hf; obtain ⟨rfl, rfl⟩ := hf
      simp [Deserved, Counts.found, Counts.unsupported]
    · by_cases hp : p = .expr
      · simp only [hp, beq_self_eq_true, if_true, Prod.mk.injEq] at hf; obtain ⟨rfl, rfl⟩ := hf
        simp [Deserved, Counts.found, Counts.succeed, hp]
      · simp only [hb, hp, if_false, Prod.mk.injEq] at hf; obtain ⟨rfl, rfl⟩ := hf
        simp [Deserved, Counts.found, Counts.unsupported, hp]
    · simp only [Prod.mk.injEq] at hf; obtain ⟨rfl, rfl⟩ := hf
      simp [Deserved, Counts.found, Counts.misidentified]
    · simp only [Prod.mk.injEq] at hf; obtain ⟨rfl, rfl⟩ := hf
      simp [Deserved, Counts.found, Counts.succeed]
    · cases k <;> cases i <;> simp only [Prod.mk.injEq] at hf <;> obtain ⟨rfl, rfl⟩ := hf <;>
        simp [Deserved, Counts.found, Counts.succeed, Counts.unsupported]
    · simp only [Prod.mk.injEq] at hf; obtain ⟨rfl, rfl⟩ := hf
      simp [Deserved, Counts.found, Counts.unsupported]
  unfold visitCall at h
  cases hr : replaceModule f (fullAttrStrict f (blackList f) hit e) with
  | error x => rw [hr] at h; simp [bind, Except.bind] at h
  | ok full =>
    rw [hr] at h
    simp only [bind, Except.bind] at h
    split at h
    · rename_i api _
      cases hm : getMatcher T T.api api with
      | error x => rw [hm] at h; simp at h
      | ok m =>
        rw [hm] at h
        simp only [pure, Except.pure, Except.ok.injEq] at h
        exact Or.inr ⟨api, m, hm, hfin _ _ _ h⟩
    · rename_i api _
      cases hm : getMatcher T T.api api with
      | error x => rw [hm] at h; simp at h
      | ok m =>
        rw [hm] at h
        simp only [pure, Except.pure, Except.ok.injEq] at h
        exact Or.inr ⟨api, m, hm, hfin _ _ _ h⟩
    · simp only [pure, Except.pure, Except.ok.injEq, Prod.mk.injEq] at h
      exact Or.inl ⟨h.1.symm, h.2.symm⟩

example : visitCall exTables exFile noHit (answer .nothing) (exDot py"torch" py"save") .other {} =
    .ok ({ torch := 1, all := [(py"torch.save", 1)], unsupport := [(py"torch.save", 1)] }, .unsupported) := by
  decide +kernel

/-! ## C65 -/

theorem reported_unsupported (s t : Counts) (h : t.unsupport = s.unsupport) (name : Str) :
    Reported s (t.unsupported name) name := by
  constructor
  · simp [Counts.unsupported, bump, h]
  · intro other ho
    simp [Counts.unsupported, bump, Dict.get?_set, h, ho.symm]

theorem finish_reported {api report : Str} {r : Option Res} {b : Bool} {s s' : Counts}
    (h : finish api report r b (s.found api) = (s', .unsupported)) : Reported s s' report := by
  have key : (s.found api).unsupported report = s' → Reported s s' report := by
    rintro rfl
    exact reported_unsupported s (s.found api) rfl report
  unfold finish at h
  rcases r with _ | (_ | _ | _ | ⟨k, i⟩ | _)
  · simp only [Prod.mk.injEq, and_true] at h; exact key h
  · cases b
    · simp only [Bool.false_eq_true, if_false, Prod.mk.injEq, and_true] at h; exact key h
    · simp at h
  · simp at h
  · simp at h
  · cases k <;> cases i <;> simp only [Prod.mk.injEq, and_true, reduceCtorEq, and_false] at h
    all_goals exact key h
  · simp only [Prod.mk.injEq, and_true] at h; exact key h

theorem splitOn_last {c : Char} (a : Str) {m : Str} (h : c ∉ m) : (Str.splitOn c (a ++ c :: m)).getLastD [] = m := by
  induction a with
  | nil =>
    have := Str.splitOn_append_cons (c := c) (p := []) (s := m) (by simp)
    simp only [List.nil_append] at this ⊢
    rw [this, Str.splitOn_of_not_mem h]; rfl
  | cons x a ih =>
    rw [List.cons_append]
    unfold Str.splitOn
    by_cases hx : x = c
    · rw [if_pos hx]
      cases hs : Str.splitOn c (a ++ c :: m) with
      | nil => exact absurd hs (Str.splitOn_ne_nil _ _)
      | cons p ps => rw [hs] at ih; simpa using ih
    · rw [if_neg hx]
      cases hs : Str.splitOn c (a ++ c :: m) with
      | nil => exact absurd hs (Str.splitOn_ne_nil _ _)
      | cons p ps =>
        cases ps with
        | nil =>
          have := Str.length_splitOn c (a ++ c :: m)
          rw [hs] at this
          simp at this
        | cons q qs => rw [hs] at ih; simpa using ih

theorem startWithTorch_iff (f : File) (full : Str) : startWithTorch f full = true ↔ OfPackage f full := by
  simp only [startWithTorch, OfPackage, List.any_eq_true, Str.startsWith_iff]

/-- **C65, calls.** A call that is not supported is listed once more under its name: the full name for an API of a package, `*.m`
for a method `m`. Nothing else changes in the table. -/
theorem C65_calls_reported (T : Tables) (f : File) (hit : Str → Str → Bool) (o : Oracle) (e : Expr) (p : Parent)
    (s s' : Counts) (h : visitCall T f hit o e p s = .ok (s', .unsupported)) :
    ∃ full, replaceModule f (fullAttrStrict f (blackList f) hit e) = .ok full ∧
      ((OfPackage f full ∨ Listed T full) → Reported s s' full) ∧
      (¬ (OfPackage f full ∨ Listed T full) →
        Reported s s' (py"*." ++ (Str.splitOn '.' full).getLastD [])) := by
  unfold visitCall at h
  cases hr : replaceModule f (fullAttrStrict f (blackList f) hit e) with
  | error x => rw [hr] at h; simp [bind, Except.bind] at h
  | ok full =>
    rw [hr] at h
    simp only [bind, Except.bind] at h
    refine ⟨full, rfl, ?_⟩
    rw [← startWithTorch_iff, ← listed_iff, ← Bool.or_eq_true]
    cases hd : decideCall T f full with
    | package api =>
      rw [hd] at h
      dsimp only at h
      have hp : (startWithTorch f full || inApi T full) = true ∧ api = full := by
        unfold decideCall at hd
        split at hd
        · next hx => simp only [Decision.package.injEq] at hd; exact ⟨hx, hd.symm⟩
        · split at hd
          · simp at hd
          · split at hd <;> simp at hd
      obtain ⟨hp, rfl⟩ := hp
      cases hm : getMatcher T T.api api with
      | error x => rw [hm] at h; simp at h
      | ok m =>
        rw [hm] at h
        simp only [pure, Except.pure, Except.ok.injEq] at h
        exact ⟨fun _ => finish_reported h, fun hn => absurd hp hn⟩
    | cls api =>
      rw [hd] at h
      dsimp only at h
      obtain ⟨hn, -, _, c, _, -, hapi, -⟩ := (C35_class_call T f full api).1 hd
      rw [← listed_iff, ← Bool.or_eq_true] at hn
      cases hm : getMatcher T T.api api with
      | error x => rw [hm] at h; simp at h
      | ok m =>
        rw [hm] at h
        simp only [pure, Except.pure, Except.ok.injEq] at h
        refine ⟨fun hp => absurd hp hn, fun _ => ?_⟩
        have hs : starName api = py"*." ++ (Str.splitOn '.' full).getLastD [] := by
          have hlast : '.' ∉ (Str.splitOn '.' full).getLastD [] := by
            cases hsp : Str.splitOn '.' full with
            | nil => simp
            | cons q qs =>
              apply Str.not_mem_of_mem_splitOn (s := full)
              rw [hsp, List.getLastD_eq_getLast?, List.getLast?_eq_some_getLast (by simp)]
              exact List.getLast_mem _
          have e1 : api = c.name ++ '.' :: (Str.splitOn '.' full).getLastD [] := by rw [hapi]; simp
          unfold starName
          rw [if_pos (by rw [e1]; simp), e1, splitOn_last _ hlast]
          rfl
        rw [← hs]
        exact finish_reported h
    | leave =>
      rw [hd] at h
      simp [pure, Except.pure] at h

theorem viaParent_reported {T : Tables} {o : Oracle} {api : Str} {s s' : Counts}
    (h : viaParent T o api (s.found api) = .ok (s', .unsupported)) : Reported s s' api := by
  have key : (s.found api).unsupported api = s' → Reported s s' api := by
    rintro rfl
    exact reported_unsupported s (s.found api) rfl api
  unfold viaParent at h
  split at h
  · split at h
    · simp at h
    · simp only [Except.ok.injEq, Prod.mk.injEq, and_true] at h; exact key h
    · split at h <;> simp at h
  · simp only [Except.ok.injEq, Prod.mk.injEq, and_true] at h; exact key h

/-- **C65, attributes.** In the same way for an attribute that is not the function of a call: it is listed under the full name of
the API, for a member of a class under the name of the class and the attribute. -/
theorem C65_attributes_reported (T : Tables) (f : File) (hit : Str → Str → Bool) (o : Oracle) (e : Expr) (p : Parent)
    (s s' : Counts) (h : visitAttr T f hit o e p s = .ok (s', .unsupported)) :
    ∃ full, replaceModule f (fullAttrStrict f (blackList f) hit e) = .ok full ∧
      (OfPackage f full → Reported s s' full) ∧
      (¬ OfPackage f full → ∃ c : Cls, AdmissibleAttr full (Str.splitOn '.' full).length c ∧
        Reported s s' (c.name ++ py"." ++ (Str.splitOn '.' full).getLastD [])) := by
  unfold visitAttr at h
  cases hr : replaceModule f (fullAttrStrict f (blackList f) hit e) with
  | error x => rw [hr] at h; simp [bind, Except.bind] at h
  | ok full =>
    rw [hr] at h
    simp only [bind, Except.bind] at h
    refine ⟨full, rfl, ?_⟩
    rw [← startWithTorch_iff]
    cases hd : decideAttr T f full with
    | package api =>
      rw [hd] at h
      dsimp only at h
      have hp : startWithTorch f full = true ∧ api = full := by
        unfold decideAttr at hd
        split at hd
        · next hx => simp only [Decision.package.injEq] at hd; exact ⟨hx, hd.symm⟩
        · split at hd
          · simp at hd
          · split at hd <;> simp at hd
      obtain ⟨hp, rfl⟩ := hp
      refine ⟨fun _ => ?_, fun hn => absurd hp hn⟩
      cases hm : getMatcher T T.attr api with
      | error x => rw [hm] at h; simp at h
      | ok am =>
        rw [hm] at h
        dsimp only at h
        cases hc : getMatcher T T.api api with
        | error x => rw [hc] at h; simp at h
        | ok cm =>
          rw [hc] at h
          dsimp only at h
          split at h
          · simp at h
          · split at h
            · split at h
              · exact viaParent_reported h
              · simp [pure, Except.pure] at h
            · simp [pure, Except.pure] at h
            · simp [pure, Except.pure] at h
            · simp [pure, Except.pure] at h
            · exact viaParent_reported h
            · exact viaParent_reported h
    | cls api =>
      rw [hd] at h
      dsimp only at h
      have hx := (C35_class_attribute T f full api).1 hd
      obtain ⟨hn, -, c, hapi, hadm, -⟩ := hx
      cases hm : getMatcher T T.attr api with
      | error x => rw [hm] at h; simp at h
      | ok m =>
        rw [hm] at h
        simp only [pure, Except.pure, Except.ok.injEq] at h
        refine ⟨fun hp => absurd hp hn, fun _ => ⟨c, hadm, ?_⟩⟩
        rw [← hapi]
        exact finish_reported h
    | leave =>
      rw [hd] at h
      simp [pure, Except.pure] at h

/-- `x.frobnicate()` where the table has `torch.Tensor.frobnicate` without a matcher that accepts it -/
example : ∃ s', visitCall { exTables with api := [(py"torch.Tensor.frob", {})] } exFile noHit (answer .nothing) (exDot py"x" py"frob") .other
    { unsupport := [(py"*.frob", 2)] } = .ok (s', .unsupported) ∧ s'.unsupport = [(py"*.frob", 3)] :=
  ⟨_, by rfl, by rfl⟩

end Verif.Dispatch
