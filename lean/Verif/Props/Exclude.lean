import Verif.Model.Exclude
import Verif.Props.Pipeline
import Mathlib.Tactic.Ring

/-!
# C83: excluded packages
-/

namespace Verif.Exclude
open Verif Verif.Data
open Verif.Dispatch
open Verif.Uses (E Env visitE chain Proper)
open Verif.Pipeline (toExpr Plain dispatchCall)
open Verif.Imports (Cfg PBlock Bind Regular InPackage visitBlock)

/-! ## The option -/

theorem pops_spec : ∀ (ps : List Str) (d : Dict Str Str), d.WF →
    pops ps d = if ps.Nodup ∧ ∀ p ∈ ps, p ∈ d.keys then .ok (d.filter fun kv => kv.1 ∉ ps) else .error .keyError
  | [], d, _ => by simp [pops]
  | p :: ps, d, hd => by
    unfold pops
    by_cases hp : p ∈ d.keys
    · rw [if_pos (Dict.has_iff.2 hp), pops_spec ps (d.erase p) (hd.erase p)]
      have hf : (d.erase p).filter (fun kv => kv.1 ∉ ps) = d.filter (fun kv => kv.1 ∉ p :: ps) := by
        clear hp
        induction d with
        | nil => rfl
        | cons a d ih =>
          obtain ⟨a, w⟩ := a
          simp only [Dict.WF, Dict.keys, List.map_cons, List.nodup_cons] at hd
          unfold Dict.erase
          split
          · next e =>
            subst e
            rw [List.filter_cons_of_neg (by simp)]
            apply List.filter_congr
            intro kv hkv
            have : kv.1 ≠ a := fun e => hd.1 (List.mem_map.2 ⟨kv, hkv, e⟩)
            simp [this]
          · next e =>
            by_cases ha : a ∈ ps
            · rw [List.filter_cons_of_neg (by simp [ha]), List.filter_cons_of_neg (by simp [ha])]
              exact ih hd.2
            · rw [List.filter_cons_of_pos (by simp [ha]), List.filter_cons_of_pos (by simp [ha, e])]
              exact congrArg _ (ih hd.2)
      rw [hf]
      have : (ps.Nodup ∧ ∀ q ∈ ps, q ∈ (d.erase p).keys) ↔ ((p :: ps).Nodup ∧ ∀ q ∈ p :: ps, q ∈ d.keys) := by
        simp only [Dict.mem_keys_erase hd, List.nodup_cons, List.mem_cons, forall_eq_or_imp]
        constructor
        · rintro ⟨h1, h2⟩
          exact ⟨⟨fun h => (h2 p h).2 rfl, h1⟩, hp, fun q hq => (h2 q hq).1⟩
        · rintro ⟨⟨h1, h2⟩, h3, h4⟩
          exact ⟨h2, fun q hq => ⟨h4 q hq, fun e => h1 (e ▸ hq)⟩⟩
      simp only [this]
    · rw [if_neg (fun h => hp (Dict.has_iff.1 h)), if_neg]
      rintro ⟨-, h⟩
      exact hp (h p (by simp))

/-- **C83, the option.** A list of packages is accepted exactly if they are different and all in the table of packages; then exactly these are
taken out of the table, and the others keep their replacement. Anything else (a package that is not in the table, one given twice, a space or a
comma too many) ends the run with a `KeyError` before anything is read or written. -/
theorem C83_option (option : Str) (hne : option ≠ []) (table : Dict Str Str) (hw : table.keys.Nodup) :
    (∀ new, exclude (some option) table = .ok new ↔
      ((Str.splitOn ',' option).Nodup ∧ ∀ p ∈ Str.splitOn ',' option, p ∈ table.keys) ∧
        new = table.filter fun kv => kv.1 ∉ Str.splitOn ',' option) ∧
    (exclude (some option) table = .error .keyError ↔
      ¬ ((Str.splitOn ',' option).Nodup ∧ ∀ p ∈ Str.splitOn ',' option, p ∈ table.keys)) := by
  unfold exclude
  dsimp only
  rw [if_neg hne, pops_spec _ _ hw]
  constructor
  · intro new
    split
    · next h => simp only [Except.ok.injEq, h, true_and]
                exact ⟨fun e => ⟨h.2, e.symm⟩, fun e => e.2.symm⟩
    · next h => simp only [h, false_and]; simp
  · split
    · next h => simp only [h]; simp; exact h.2
    · next h => simp only [h]; simp

example : exclude (some py"torchvision,timm") torchPackages =
    .ok (torchPackages.filter fun kv => kv.1 ≠ py"torchvision" ∧ kv.1 ≠ py"timm") := by decide +kernel
example : exclude (some py"torchvision, timm") torchPackages = .error .keyError := by decide +kernel

/-! ## Uses of excluded packages -/

/-- A name of another package hides everything before it. -/
theorem hidden (f : File) (hit : Str → Str → Bool) (a : Str) (rest : List Str) (ha : a ∈ f.other) :
    ∃ t, fullAttrStrict f (blackList f) hit (dotted a rest) = nonTorch ++ t ∧ (t = [] ∨ ∃ r, t = '.' :: r) := by
  have go : ∀ (rest : List Str) (e : Expr), (∃ t, fullAttrStrict f (blackList f) hit e = nonTorch ++ t ∧ (t = [] ∨ ∃ r, t = '.' :: r)) →
      ∃ t, fullAttrStrict f (blackList f) hit (rest.foldl Expr.attr e) = nonTorch ++ t ∧ (t = [] ∨ ∃ r, t = '.' :: r) := by
    intro rest
    induction rest with
    | nil => intro e h; exact h
    | cons b rest ih =>
      intro e ⟨t, h, ht⟩
      apply ih
      simp only [fullAttrStrict]
      split
      · exact ⟨[], by simp, Or.inl rfl⟩
      · split
        · exact ⟨[], by simp, Or.inl rfl⟩
        · refine ⟨t ++ '.' :: b, by rw [h]; simp, Or.inr ?_⟩
          rcases ht with rfl | ⟨r, rfl⟩
          · exact ⟨_, rfl⟩
          · exact ⟨_, rfl⟩
  apply go
  refine ⟨[], ?_, Or.inl rfl⟩
  have : a ∈ blackList f := by simp [blackList, ha]
  simp [fullAttrStrict, this]

theorem decodeGo_lt (fuel n : Nat) (acc : Str) (h : ∀ c ∈ acc, c.toNat < 256) : ∀ c ∈ decodeGo fuel n acc, c.toNat < 256 := by
  induction fuel generalizing n acc with
  | zero => exact h
  | succ fuel ih =>
    unfold decodeGo
    split
    · exact h
    · apply ih
      intro c hc
      rcases List.mem_cons.1 hc with rfl | hc
      · rw [toNat_ofNat_digit]
        omega
      · exact h c hc

theorem decode_lt (n : Nat) : ∀ c ∈ decode n, c.toNat < 256 := decodeGo_lt _ _ _ (by simp)

theorem encode_bounds (s : Str) (h : ∀ c ∈ s, c.toNat < 256) (m : Nat) :
    m * 256 ^ s.length ≤ s.foldl (fun n c => 256 * n + c.toNat) m ∧
      s.foldl (fun n c => 256 * n + c.toNat) m < (m + 1) * 256 ^ s.length := by
  induction s generalizing m with
  | nil => simp
  | cons c s ih =>
    have := ih (fun d hd => h d (by simp [hd])) (256 * m + c.toNat)
    have hc := h c (by simp)
    simp only [List.foldl_cons, List.length_cons]
    rw [Nat.pow_succ]
    have e1 : m * (256 ^ s.length * 256) = (256 * m) * 256 ^ s.length := by ring
    have e2 : (m + 1) * (256 ^ s.length * 256) = (256 * m + 256) * 256 ^ s.length := by ring
    rw [e1, e2]
    exact ⟨le_trans (Nat.mul_le_mul_right _ (by omega)) this.1,
      lt_of_lt_of_le this.2 (Nat.mul_le_mul_right _ (by omega))⟩

/-- The number of the first letter. -/
def letter : Nat → Nat → Nat
  | 0, n => n
  | fuel + 1, n => if n < 256 then n else letter fuel (n / 256)

theorem letter_spec (k : Nat) : ∀ (fuel n m : Nat), k ≤ fuel → 0 < m → m < 256 → m * 256 ^ k ≤ n → n < (m + 1) * 256 ^ k → letter fuel n = m := by
  induction k with
  | zero =>
    intro fuel n m hf h0 hm h1 h2
    have : n = m := by simp only [Nat.pow_zero, Nat.mul_one] at h1 h2; omega
    subst this
    cases fuel with
    | zero => rfl
    | succ f => rw [letter, if_pos hm]
  | succ k ih =>
    intro fuel n m hf h0 hm h1 h2
    obtain ⟨f, rfl⟩ : ∃ f, fuel = f + 1 := ⟨fuel - 1, by omega⟩
    have hp : 0 < 256 ^ k := Nat.pow_pos (by decide)
    have e1 : m * 256 ^ (k + 1) = (m * 256 ^ k) * 256 := by ring
    have e2 : (m + 1) * 256 ^ (k + 1) = ((m + 1) * 256 ^ k) * 256 := by ring
    have hge : ¬ n < 256 := by
      have := Nat.mul_pos h0 hp
      omega
    rw [letter, if_neg hge]
    refine ih f _ m (by omega) h0 hm ?_ ?_
    · rw [Nat.le_div_iff_mul_le (by decide)]; omega
    · rw [Nat.div_lt_iff_lt_mul (by decide)]; omega

theorem letter_decode {n : Nat} {c : Char} {s : Str} (h : decode n = c :: s) (hc : 0 < c.toNat) : letter n n = c.toNat := by
  have hlt := decode_lt n
  rw [h] at hlt
  have hn : n = s.foldl (fun n c => 256 * n + c.toNat) (256 * 0 + c.toNat) := by
    rw [← encode_decode n, h]; rfl
  have hb := encode_bounds s (fun d hd => hlt d (by simp [hd])) (256 * 0 + c.toNat)
  rw [← hn] at hb
  simp only [Nat.mul_zero, Nat.zero_add] at hb
  refine letter_spec s.length n n _ ?_ hc (hlt c (by simp)) hb.1 hb.2
  calc s.length ≤ 256 ^ s.length := (Nat.lt_pow_self (by decide)).le
    _ ≤ c.toNat * 256 ^ s.length := Nat.le_mul_of_pos_left _ hc
    _ ≤ n := hb.1

/-- The names of the table begin neither with `N` nor with `x`. -/
def letterOk (n : Nat) : Bool := let l := letter n n; !l.beq 78 && !l.beq 120

theorem api_names : apiTable.all (fun r => letterOk r.key) = true := by decide +kernel
theorem alias_names : aliasTable.all (fun a => letterOk a.1) = true := by decide +kernel

theorem letter_no {n : Nat} (h : letterOk n = true) {c : Char} (hc : c = 'N' ∨ c = 'x') (s : Str) : decode n ≠ c :: s := by
  intro e
  unfold letterOk at h
  rcases hc with rfl | rfl
  · rw [letter_decode e (by decide)] at h; exact absurd h (by decide)
  · rw [letter_decode e (by decide)] at h; exact absurd h (by decide)

/-- No name of the table begins with such a component. -/
theorem not_listed {h : Str} (hh : h = nonTorch ∨ h = py"x") (t : Str) :
    inApi shipped (h ++ t) = false := by
  have hno : ∃ c r, h ++ t = c :: r ∧ (c = 'N' ∨ c = 'x') := by
    rcases hh with rfl | rfl
    · exact ⟨_, _, rfl, Or.inl rfl⟩
    · exact ⟨_, _, rfl, Or.inr rfl⟩
  obtain ⟨c, r, hcr, hc⟩ := hno
  have hal : canonical shipped (h ++ t) = h ++ t := by
    unfold canonical
    rw [Dict.get?_eq_none_iff.2]
    · rfl
    · rw [alias_keys]
      intro hm
      obtain ⟨a, ha, e⟩ := List.mem_map.1 hm
      have := List.all_eq_true.1 alias_names a ha
      exact letter_no this hc r (e.trans hcr)
  have hap : h ++ t ∉ shipped.api.keys := by
    rw [api_keys]
    intro hm
    obtain ⟨a, ha, e⟩ := List.mem_map.1 hm
    have := List.all_eq_true.1 api_names a ha
    exact letter_no this hc r (e.trans hcr)
  unfold inApi
  rw [hal, Bool.eq_false_iff.2 (fun hx => hap (Dict.has_iff.1 hx)), Bool.false_or]
  show wildcards.any _ = false
  rcases hh with rfl | rfl <;> simp [wildcards, Matcher.matchDots, nonTorch]

theorem packages_apart : torchPackages.keys.all (fun p => !(py"NonTorchClass".isPrefixOf p) && !(p.isPrefixOf py"NonTorchClass") &&
    decide ('.' ∉ p)) = true := by decide +kernel

theorem hidden_left (f : File) (hit : Str → Str → Bool) (o : Oracle) (e : Expr) (par : Parent) (s : Counts)
    (h : ∃ t, fullAttrStrict f (blackList f) hit e = nonTorch ++ t ∧ (t = [] ∨ ∃ r, t = '.' :: r))
    (hn : f.names.get? nonTorch = none) (hp : ∀ p ∈ f.torch, p ∈ torchPackages.keys) :
    visitCall shipped f hit o e par s = .ok (s, .kept) ∧ visitAttr shipped f hit o e par s = .ok (s, .kept) := by
  obtain ⟨t, he, ht⟩ := h
  have hfull : replaceModule f (fullAttrStrict f (blackList f) hit e) = .ok (nonTorch ++ t) := by
    rw [he]
    have h1 : (Str.splitOn '.' (nonTorch ++ t)).headD [] = nonTorch := by
      rcases ht with rfl | ⟨r, rfl⟩
      · decide
      · rw [Str.splitOn_append_cons (by decide)]; rfl
    have h2 : nonTorch ∉ reservedKeys := by decide
    unfold replaceModule
    dsimp only
    rw [h1, if_neg h2, hn]
  have hs : startWithTorch f (nonTorch ++ t) = false := by
    rw [Bool.eq_false_iff]
    intro hc
    unfold startWithTorch at hc
    obtain ⟨p, hp1, hp2⟩ := List.any_eq_true.1 hc
    obtain ⟨r, hr⟩ := Str.startsWith_iff.1 hp2
    have := List.all_eq_true.1 packages_apart p (hp p hp1)
    simp only [Bool.and_eq_true, Bool.not_eq_true', Bool.eq_false_iff, ne_eq, List.isPrefixOf_iff_prefix] at this
    rcases List.prefix_or_prefix_of_prefix (l₁ := p) (l₂ := nonTorch) (l₃ := nonTorch ++ t)
        ⟨py"." ++ r, by rw [hr]; simp⟩ ⟨t, rfl⟩ with h' | h'
    · exact this.1.2 h'
    · exact this.1.1 h'
  have hi : inApi shipped (nonTorch ++ t) = false := not_listed (Or.inl rfl) t
  have hc : Str.contains (nonTorch ++ t) nonTorch = true := Str.contains_iff.2 ⟨[], t, by simp⟩
  constructor
  · unfold visitCall
    rw [hfull]
    have : decideCall shipped f (nonTorch ++ t) = .leave := by simp [decideCall, hs, hi, hc]
    simp [bind, Except.bind, this]; rfl
  · unfold visitAttr
    rw [hfull]
    have : decideAttr shipped f (nonTorch ++ t) = .leave := by simp [decideAttr, hs, hc]
    simp [bind, Except.bind, this]; rfl

theorem packages_wf : torchPackages.keys.Nodup := by decide +kernel
theorem may_apart : ∀ p ∈ mayPackages, p ∉ torchPackages.keys ∧ '.' ∉ p := by decide +kernel

theorem no_dot {p : Str} (h : p ∈ torchPackages.keys) : '.' ∉ p := by
  have := List.all_eq_true.1 packages_apart p h
  simp only [Bool.and_eq_true, decide_eq_true_eq] at this
  exact this.2

/-- What the option does to the shipped table. -/
theorem excluded {option : Str} {table : Dict Str Str} (h : exclude (some option) torchPackages = .ok table) :
    (∀ p ∈ table.keys, p ∈ torchPackages.keys) ∧ ∀ p ∈ Str.splitOn ',' option, option ≠ [] → p ∈ torchPackages.keys ∧ p ∉ table.keys := by
  by_cases hne : option = []
  · subst hne
    simp only [exclude, if_true, Except.ok.injEq] at h
    subst h
    exact ⟨fun p hp => hp, fun p hp h => absurd rfl h⟩
  · obtain ⟨⟨h1, h2⟩, rfl⟩ := ((C83_option option hne torchPackages packages_wf).1 table).1 h
    refine ⟨fun p hp => ?_, fun p hp _ => ⟨h2 p hp, fun hk => ?_⟩⟩
    · obtain ⟨kv, hkv, rfl⟩ := List.mem_map.1 hp
      exact List.mem_map.2 ⟨kv, List.mem_of_mem_filter hkv, rfl⟩
    · obtain ⟨kv, hkv, e⟩ := List.mem_map.1 hk
      have := List.of_mem_filter hkv
      simp only [decide_eq_true_eq] at this
      exact this (e ▸ hp)

theorem inPackage_inj {m p q : Str} (hp : '.' ∉ p) (hq : '.' ∉ q) (h1 : InPackage m p) (h2 : InPackage m q) : p = q := by
  have key : ∀ {p : Str}, '.' ∉ p → InPackage m p → (Str.splitOn '.' m).headD [] = p := by
    rintro p hp (rfl | ⟨t, rfl⟩)
    · rw [Str.splitOn_of_not_mem hp]; rfl
    · rw [Str.splitOn_append_cons hp]; rfl
  rw [← key hp h1, key hq h2]

theorem not_torch {option : Str} (hne : option ≠ []) {c : Cfg} (hc : exclude (some option) torchPackages = .ok c.torch)
    (hmay : c.may = mayPackages) {b : Bind} {p m : Str} (hp : p ∈ Str.splitOn ',' option) (hm : b.module = some m) (hin : InPackage m p) :
    ¬ b.Torch c := by
  rintro ⟨-, m', hm', -, q, hq, hin'⟩
  rw [hm] at hm'
  cases hm'
  obtain ⟨e1, e2⟩ := excluded hc
  obtain ⟨p1, p2⟩ := e2 p hp hne
  have hqd : '.' ∉ q := by
    rcases hq with hq | hq
    · exact no_dot (e1 q hq)
    · exact (may_apart q (hmay ▸ hq)).2
  have := inPackage_inj (no_dot p1) hqd hin hin'
  subst this
  rcases hq with hq | hq
  · exact p2 hq
  · exact (may_apart p (hmay ▸ hq)).1 p1

/-- **C83**, partial (programs of regular imports; uses under the name that the import brings in). With `--exclude_packages`, every import `b` of
an excluded package stays as it is; the package is not among those whose uses are marked in the result; and a use of the imported name,
with any attributes after it, is left alone by both passes, as a call and as an attribute: nothing changes in the code, the counters and the reports.
Missing: `import p.q` without `as` brings in the name `p`, for which it is false (`C83_dotted_negative`); names that a package that
is not excluded brings in too. -/
theorem C83_left_alone_partial (option : Str) (hne : option ≠ []) (c : Cfg) (hc : exclude (some option) torchPackages = .ok c.torch)
    (hmay : c.may = mayPackages) (body : PBlock) (hreg : ∀ i ∈ body.imps, Regular c i)
    (b : Bind) (hb : b ∈ body.binds) (p m : Str) (hp : p ∈ Str.splitOn ',' option) (hm : b.module = some m) (hin : InPackage m p)
    (hstar : b.as_ ≠ py"*") (hone : ∀ b' ∈ body.binds, b'.Torch c → b'.as_ ≠ b.as_ ∧ b'.as_ ≠ py"NonTorchClass") :
    b ∈ (visitBlock c (0, false) body {}).1.binds ∧ p ∉ (visitBlock c (0, false) body {}).2.file.torch ∧
    ∀ (func : E) (rest : List Str), chain func = some (b.as_ :: rest) → Proper func →
      (∀ (v : Env) (pos : Bool), v.file.names.get? b.as_ = none → visitE v pos func = func) ∧
      ∀ (hit : Str → Str → Bool) (src : E → Str) (o : Oracle) (par : Parent) (s : Counts),
        visitCall shipped (visitBlock c (0, false) body {}).2.file hit o (toExpr src func) par s = .ok (s, .kept) ∧
        visitAttr shipped (visitBlock c (0, false) body {}).2.file hit o (toExpr src func) par s = .ok (s, .kept) := by
  have hnt : ¬ b.Torch c := not_torch hne hc hmay hp hm hin
  have htorch : ∀ q ∈ (visitBlock c (0, false) body {}).2.file.torch, q ∈ c.torch.keys := by
    intro q hq
    rcases ((Imports.visitBlock_grow c (0, false) body {} hreg).torch q).1 hq with h | ⟨h, hm⟩
    · simp at h
    · obtain ⟨b', -, -, h⟩ := Imports.mem_pkgs.1 h
      unfold Imports.Bind.package Imports.packageOf at h
      rcases List.mem_append.1 (List.mem_of_find?_eq_some h) with h | h
      · exact h
      · exact absurd h hm
  refine ⟨?_, fun h => ((excluded hc).2 p hp hne).2 (htorch p h), ?_⟩
  · have := (Imports.visitBlock_imps c (0, false) body {} hreg).1
    have hb' : b ∈ Imports.bindsOf body.imps := hb
    show b ∈ Imports.bindsOf _
    rw [this, List.mem_filter]
    refine ⟨hb', ?_⟩
    rw [Bool.or_eq_true, Bool.not_eq_true', Bool.eq_false_iff]
    exact Or.inr fun h => hnt (Imports.torchB_iff.1 h)
  · intro func rest hf hprop
    refine ⟨fun v pos hv => Uses.visit_unbound v pos hprop hf hv, fun hit src o par s => ?_⟩
    rw [Pipeline.toExpr_chain src hf]
    apply hidden_left
    · apply hidden
      exact (Imports.C27_other_names_partial c body hreg _ hstar).2 ⟨b, hb, hnt, rfl⟩
    · cases hg : (visitBlock c (0, false) body {}).2.file.names.get? nonTorch with
      | none => rfl
      | some x =>
        obtain ⟨l, b', r, e1, e2, e3, -⟩ := (Imports.C27_last_import_wins c body hreg _ _).1 hg
        exact absurd e3 (hone b' (by rw [e1]; simp) e2).2
    · exact fun q hq => (excluded hc).1 q (htorch q hq)

theorem matcher_of {r : Raw} (hr : r ∈ apiTable) {full : Str} (hfull : canonical shipped full = r.name) (hne : full ≠ dataLoader) :
    getMatcher shipped shipped.api full = .ok (if r.matcher = 0 then none else some (r.class, r.name)) := by
  have hget : shipped.api.get? r.name = some r.entry :=
    Dict.get?_of_mem api_wf (List.mem_map.2 ⟨r, hr, rfl⟩)
  unfold getMatcher
  rw [hfull]
  rw [if_neg]
  · dsimp only
    rw [hget]
    by_cases hm : r.matcher = 0 <;> simp [Entry.use, Raw.entry, hm]
  · intro hx
    rw [Bool.and_eq_true, Dict.has_iff, Dict.has_iff] at hx
    exact alias_not_api hx.1 hne hx.2

theorem canonical_entry {r : Raw} (hr : r ∈ apiTable) (hne : r.name ≠ dataLoader) : canonical shipped r.name = r.name := by
  have hkey : r.name ∈ shipped.api.keys := by rw [api_keys]; exact List.mem_map.2 ⟨r, hr, rfl⟩
  have : r.name ∉ shipped.aliases.keys := fun h => alias_not_api h hne hkey
  unfold canonical
  rw [Dict.get?_eq_none_iff.2 this]; rfl

theorem listed_entry {r : Raw} (hr : r ∈ apiTable) (hne : r.name ≠ dataLoader) : inApi shipped r.name = true := by
  have hkey : r.name ∈ shipped.api.keys := by rw [api_keys]; exact List.mem_map.2 ⟨r, hr, rfl⟩
  unfold inApi
  rw [canonical_entry hr hne, Dict.has_iff.2 hkey]; rfl

/-- The answer for an entry of the table. -/
def answer (packages : Dict Str Str) (r : Raw) : Except Err (Option (Str × Str)) :=
  if r.matcher = 0 then .ok none
  else if r.class = py"ChangePrefixMatcher" ∧ packages.has ((Str.splitOn '.' r.name).headD []) = false then .error .assertionError
  else .ok (some (r.class, r.name))

/-- **C83 is false for `import p.q`** (programs of regular imports). If all imports of excluded or unlisted packages have a dot and no `as`, as in
`import torchvision.transforms`, and some torch package is imported, then the call of an API of the table by its full name goes to the matcher of
this API whether its package is excluded or not: it is converted to Paddle although the import stays. A prefix-only API of an excluded package even ends the run
with an `AssertionError`. -/
theorem C83_dotted_negative (c : Cfg) (body : PBlock) (hreg : ∀ i ∈ body.imps, Regular c i)
    (hdot : ∀ b ∈ body.binds, ¬ b.Torch c → '.' ∈ b.as_)
    (htorch : ∃ b ∈ body.binds, b.Torch c ∧ ∃ p, b.package c = some p ∧ p ∉ c.may)
    (r : Raw) (hr : r ∈ apiTable) (hne : r.name ≠ py"torch.utils.data.dataloader.DataLoader")
    (a : Str) (rest : List Str) (hname : Str.splitOn '.' r.name = a :: rest)
    (hplain : Plain (fun _ => False) (a :: rest)) (hown : ∀ b ∈ body.binds, b.Torch c → b.as_ = a → b.full = a)
    (hit : Str → Str → Bool) :
    asked shipped c.torch (visitBlock c (0, false) body {}).2.file hit (dotted a rest) = answer c.torch r := by
  generalize hf : (visitBlock c (0, false) body {}).2.file = f
  have hid : ∀ x ∈ a :: rest, Ident x := fun x hx => Str.not_mem_of_mem_splitOn (hname ▸ hx)
  have ht : f.torch ≠ [] := by
    obtain ⟨b', hb', ht', p, hp, hm⟩ := htorch
    have := ((Imports.visitBlock_grow c (0, false) body {} hreg).torch p).2 (Or.inr ⟨Imports.mem_pkgs.2 ⟨b', hb', ht', hp⟩, hm⟩)
    rw [hf] at this
    exact List.ne_nil_of_mem this
  have hjoin : dottedText a rest = r.name := by
    unfold dottedText
    rw [← hname]
    exact Str.join_splitOn '.' r.name
  have hres : replaceModule f (fullAttrStrict f (blackList f) hit (dotted a rest)) = .ok r.name := by
    have hplain' : Plain (fun x => x ∈ f.other) (a :: rest) := by
      refine ⟨fun b hb => ⟨(hplain.1 b hb).1, fun hx => ?_, (hplain.1 b hb).2.2⟩, hplain.2⟩
      rw [← hf] at hx
      obtain ⟨b', h1, h2, h3⟩ := (Imports.C27_other_names_partial c body hreg b (hplain.1 b hb).1).1 hx
      exact hid b hb (h3 ▸ hdot b' h1 h2)
    rw [Pipeline.replace_plain f hit _ ht (fun x _ => Iff.rfl) a rest hid hplain']
    cases hg : f.names.get? a with
    | none => dsimp only; rw [hjoin]
    | some m =>
      rw [← hf, Imports.C27_last_import_wins c body hreg] at hg
      obtain ⟨l', b', r', e1, e2, e3, e4, -⟩ := hg
      have := hown b' (by rw [e1]; simp) e2 e3
      dsimp only
      rw [← e4, this, hjoin]
  have hdec : decideCall shipped f r.name = .package r.name := by
    unfold decideCall
    rw [listed_entry hr hne, Bool.or_true]; rfl
  unfold asked answer
  rw [hres]
  simp only [bind, Except.bind, hdec, matcher_of hr (canonical_entry hr hne) hne]
  by_cases hm : r.matcher = 0
  · simp only [hm, if_true]; rfl
  · simp only [if_neg hm, Matcher.firstComponent]; rfl

/-- **C83 and methods.** With `--exclude_packages torch`, in a file that imports another torch package, the call `x.m()` of any method of tensors that the table
has as prefix-only ends the run with an `AssertionError`, whatever `x` is. -/
theorem C83_methods_negative (packages : Dict Str Str) (hex : py"torch" ∉ packages.keys) (f : File) (ht : f.torch ≠ [])
    (hp : ∀ p ∈ f.torch, p ∈ torchPackages.keys) (hx : py"x" ∉ blackList f) (hxn : f.names.get? py"x" = none)
    (m : Str) (hm : m ∉ blackList f) (hdot : '.' ∉ m) (hnon : Str.contains m py"NonTorchClass" = false)
    (r : Raw) (hr : r ∈ apiTable) (hname : r.name = py"torch.Tensor." ++ m) (hcls : r.class = py"ChangePrefixMatcher")
    (hit : Str → Str → Bool) : asked shipped packages f hit (.attr (.name py"x") m) = .error .assertionError := by
  have hne : r.name ≠ py"torch.utils.data.dataloader.DataLoader" := by
    rw [hname]; simp
  have hfull : fullAttrStrict f (blackList f) hit (.attr (.name py"x") m) = py"x" ++ '.' :: m := by
    simp only [fullAttrStrict]
    rw [if_neg ht, if_neg hm, if_neg ht, if_neg hx, if_neg (by decide)]
    simp
  have hsplit : Str.splitOn '.' (py"x" ++ '.' :: m) = [py"x", m] := by
    rw [Str.splitOn_append_cons (by decide), Str.splitOn_of_not_mem hdot]
  have hres : replaceModule f (py"x" ++ '.' :: m) = .ok (py"x" ++ '.' :: m) := by
    have hk : py"x" ∉ reservedKeys := by decide
    unfold replaceModule
    rw [hsplit]
    simp [hk, hxn]
  have hstart : startWithTorch f (py"x" ++ '.' :: m) = false := by
    rw [Bool.eq_false_iff]
    intro hc
    obtain ⟨p, hp1, hp2⟩ := List.any_eq_true.1 hc
    obtain ⟨t, ht'⟩ := Str.startsWith_iff.1 hp2
    have hd := no_dot (hp p hp1)
    have h1 := congrArg (fun l => (Str.splitOn '.' l).headD []) ht'
    simp only [hsplit, List.append_assoc, List.headD_cons] at h1
    rw [show p ++ (py"." ++ t) = p ++ '.' :: t from rfl, Str.splitOn_append_cons hd] at h1
    have : py"x" ∉ torchPackages.keys := by decide +kernel
    exact this (by rw [h1]; exact hp p hp1)
  have hin : inApi shipped (py"x" ++ '.' :: m) = false := not_listed (Or.inr rfl) _
  have hnon' : Str.contains (py"x" ++ '.' :: m) nonTorch = false := by
    rw [Bool.eq_false_iff]
    intro h
    obtain ⟨u, v, e⟩ := Str.contains_iff.1 h
    have : Str.contains m nonTorch = true := by
      rw [Str.contains_iff]
      match u, e with
      | [], e => simp [nonTorch] at e
      | [_], e => simp [nonTorch] at e
      | _ :: _ :: u, e =>
        simp only [List.cons_append, List.nil_append, List.cons.injEq] at e
        exact ⟨u, v, e.2.2⟩
    exact absurd this (by rw [show Str.contains m nonTorch = false from hnon]; simp)
  have hself : Str.contains (py"x" ++ '.' :: m) py"self." = false := by
    rw [Bool.eq_false_iff]
    intro h
    obtain ⟨u, v, e⟩ := Str.contains_iff.1 h
    match u, e with
    | [], e => simp at e
    | [_], e => simp at e
    | _ :: _ :: u, e =>
      simp only [List.cons_append, List.nil_append, List.cons.injEq] at e
      exact hdot (by rw [e.2.2]; simp)
  have hdec : decideCall shipped f (py"x" ++ '.' :: m) = .cls r.name := by
    unfold decideCall
    rw [hstart, hin, hnon']
    have hcand : ∃ l, callCandidates (py"x" ++ '.' :: m) = r.name :: l := by
      unfold callCandidates
      simp only [hsplit, hself, hname]
      exact ⟨_, rfl⟩
    obtain ⟨l, hl⟩ := hcand
    rw [hl, List.find?_cons, listed_entry hr hne]; rfl
  have hm0 : r.matcher ≠ 0 := by
    intro e
    have := (class_iff changePrefix (by decide) r).1 hcls
    rw [e] at this
    exact absurd this (by decide)
  have hfirst : packages.has (Matcher.firstComponent r.name) = false := by
    rw [Bool.eq_false_iff]
    intro h
    have : Matcher.firstComponent r.name = py"torch" := by
      unfold Matcher.firstComponent
      rw [hname, show py"torch.Tensor." ++ m = py"torch" ++ '.' :: (py"Tensor." ++ m) from rfl, Str.splitOn_append_cons (by decide)]; rfl
    rw [this] at h
    exact hex (Dict.has_iff.1 h)
  unfold asked
  rw [hfull]
  simp only [bind, Except.bind, hres, hdec, matcher_of hr (canonical_entry hr hne) hne, if_neg hm0]
  rw [if_pos ⟨hcls, hfirst⟩]

/-- **C83, the others**, partial as C63. An import of a package that is not excluded leads every use of an API to the same matcher as without the option. -/
theorem C83_others_partial (option : Str) (c : Cfg) (hc : exclude (some option) torchPackages = .ok c.torch)
    (body : PBlock) (hreg : ∀ i ∈ body.imps, Regular c i)
    (l rs : List Bind) (b : Bind) (hb : body.binds = l ++ b :: rs) (hT : b.Torch c)
    (hlast : ∀ b' ∈ rs, b'.Torch { c with torch := torchPackages } → b'.as_ ≠ b.as_)
    (htorch : ∃ b' ∈ body.binds, b'.Torch c ∧ ∃ p, b'.package c = some p ∧ p ∉ c.may)
    (htorch' : ∃ b' ∈ body.binds, b'.Torch { c with torch := torchPackages } ∧ ∃ p, b'.package { c with torch := torchPackages } = some p ∧ p ∉ c.may)
    (rest : List Str) (func : E) (hfunc : chain func = some (b.as_ :: rest)) (hprop : Proper func)
    (v : Env) (hv : v.file.names.get? b.as_ = some b.full ∨ v.file.names.get? b.as_ = none) (hvnone : v.file.names.get? py"None" = none)
    (hkeep : ∀ x, v.keep x = false) (hcanon : v.canon = canonical shipped)
    (hspecial : ∀ a ∈ rest.dropLast, a ∉ Uses.through ∧ a ≠ py"data")
    (r : Raw) (hr : r ∈ apiTable)
    (hfull : canonical shipped (dottedText b.full rest) = r.name)
    (hload : dottedText b.full rest ≠ py"torch.utils.data.dataloader.DataLoader")
    (hplain : Plain (fun x => ∃ b' ∈ body.binds, ¬ b'.Torch c ∧ b'.as_ = x) (b.as_ :: rest))
    (hplain' : Plain (fun x => ∃ b' ∈ body.binds, ¬ b'.Torch c ∧ b'.as_ = x) (Str.splitOn '.' r.name))
    (hpkg : ∀ b' ∈ body.binds, b'.Torch { c with torch := torchPackages } → [b'.as_] = (Str.splitOn '.' r.name).take 1 → b'.full = b'.as_)
    (hit : Str → Str → Bool) (src : E → Str) :
    dispatchCall v (visitBlock c (0, false) body {}).2.file hit src func =
      dispatchCall v (visitBlock { c with torch := torchPackages } (0, false) body {}).2.file hit src func := by
  have hsub : ∀ b' : Bind, b'.Torch c → b'.Torch { c with torch := torchPackages } := by
    rintro b' ⟨h0, m, h1, h2, p, h3, h4⟩
    exact ⟨h0, m, h1, h2, p, h3.imp (fun h => (excluded hc).1 p h) id, h4⟩
  have hmono : ∀ l, Plain (fun x => ∃ b' ∈ body.binds, ¬ b'.Torch c ∧ b'.as_ = x) l →
      Plain (fun x => ∃ b' ∈ body.binds, ¬ b'.Torch { c with torch := torchPackages } ∧ b'.as_ = x) l := by
    rintro l ⟨h1, h2⟩
    exact ⟨fun b hb => ⟨(h1 b hb).1, fun ⟨b', e1, e2, e3⟩ => (h1 b hb).2.1 ⟨b', e1, fun h => e2 (hsub b' h), e3⟩, (h1 b hb).2.2⟩, h2⟩
  rw [Pipeline.C63_same_matcher_partial c body hreg l rs b hb hT (fun b' h h' => hlast b' h (hsub b' h')) htorch rest func hfunc hprop v hv hvnone
      hkeep hcanon hspecial r hr hfull hload hplain hplain' (fun b' h h' => hpkg b' h (hsub b' h')) hit src,
    Pipeline.C63_same_matcher_partial { c with torch := torchPackages } body hreg l rs b hb (hsub b hT) hlast htorch' rest func hfunc hprop v hv hvnone
      hkeep hcanon hspecial r hr hfull hload (hmono _ hplain) (hmono _ hplain') hpkg hit src]

/-! ## Examples -/

namespace Ex
/-- `--exclude_packages torchvision` -/
def cfg : Cfg where
  file := py"a.py"
  min := false
  isLocal _ := false
  torch := torchPackages.filter fun kv => kv.1 ≠ py"torchvision"
  may := mayPackages
  mapped := [(py"audiotools", py"paddlespeech.audiotools")]
/-- `import torch` / `import torchvision.transforms as T` -/
def named : PBlock :=
  .cons (.imp (.import_ [{ name := py"torch" }]))
    (.cons (.imp (.import_ [{ name := py"torchvision.transforms", asname := some py"T" }])) .nil)
/-- `import torch` / `import torchvision.transforms` -/
def full : PBlock :=
  .cons (.imp (.import_ [{ name := py"torch" }])) (.cons (.imp (.import_ [{ name := py"torchvision.transforms" }])) .nil)
theorem cfg_ok : exclude (some py"torchvision") torchPackages = .ok cfg.torch := by decide +kernel
theorem torch_ok : Bind.Torch cfg ⟨some py"torch", 0, none, py"torch"⟩ := by rw [← Imports.torchB_iff]; decide +kernel
theorem compose_entry : apiTable.any (fun r => r.key.beq (encode py"torchvision.transforms.Compose") &&
    r.matcher.beq (encode py"ChangeAPIMatcher")) = true := by decide +kernel
theorem abs_entry : apiTable.any (fun r => r.key.beq (encode py"torch.Tensor.abs") && r.matcher.beq (encode py"ChangePrefixMatcher")) = true := by
  decide +kernel
end Ex

open Ex in
/-- `T.Compose` is left alone. -/
example (hit : Str → Str → Bool) (src : E → Str) (o : Oracle) (par : Parent) (s : Counts) :
    visitCall shipped (visitBlock cfg (0, false) named {}).2.file hit o (toExpr src (.attr (.name py"T") py"Compose")) par s = .ok (s, .kept) := by
  refine ((C83_left_alone_partial py"torchvision" (by decide) cfg cfg_ok rfl named ?_
    ⟨some py"torchvision.transforms", 0, none, py"T"⟩ (by decide) py"torchvision" py"torchvision.transforms" (by decide) rfl
    (Or.inr ⟨py"transforms", rfl⟩) (by decide) ?_).2.2 (.attr (.name py"T") py"Compose") [py"Compose"] rfl (by simp [Proper])).2 hit src o par s |>.1
  · intro i hi
    simp only [named, PBlock.imps, Imports.PStmt.imps, List.mem_append, List.mem_cons, List.not_mem_nil, or_false] at hi
    rcases hi with rfl | rfl <;> exact ⟨by decide, by decide⟩
  · intro b' h1 h2
    have : b' = ⟨some py"torch", 0, none, py"torch"⟩ ∨ b' = ⟨some py"torchvision.transforms", 0, none, py"T"⟩ := by
      simpa [named, PBlock.binds, PBlock.imps, Imports.PStmt.imps, Imports.Imp.binds] using h1
    rcases this with rfl | rfl
    · exact ⟨by decide, by decide⟩
    · exact absurd h2 (by rw [← Imports.torchB_iff]; decide +kernel)

open Ex in
/-- `torch.abs` gets the same matcher with `--exclude_packages torchvision` as without. -/
example (hit : Str → Str → Bool) (src : E → Str) (r : Raw) (hr : r ∈ apiTable) (hn : r.name = py"torch.abs") :
    dispatchCall ⟨{}, fun _ => false, canonical shipped, fun _ => false⟩ (visitBlock cfg (0, false) named {}).2.file hit src (.attr (.name py"torch") py"abs") =
      dispatchCall ⟨{}, fun _ => false, canonical shipped, fun _ => false⟩ (visitBlock { cfg with torch := torchPackages } (0, false) named {}).2.file hit src
        (.attr (.name py"torch") py"abs") := by
  have hb : named.binds = [] ++ ⟨some py"torch", 0, none, py"torch"⟩ :: [⟨some py"torchvision.transforms", 0, none, py"T"⟩] := by decide
  have hT : Bind.Torch { cfg with torch := torchPackages } ⟨some py"torch", 0, none, py"torch"⟩ := by rw [← Imports.torchB_iff]; decide +kernel
  have hO : ∀ l : List Str, py"T" ∉ l → ∀ x ∈ l, ¬ ∃ b' ∈ named.binds, ¬ b'.Torch cfg ∧ b'.as_ = x := by
    rintro l hl x hx ⟨b', h1, h2, rfl⟩
    rw [hb] at h1
    simp only [List.nil_append, List.mem_cons, List.not_mem_nil, or_false] at h1
    rcases h1 with rfl | rfl
    · exact h2 torch_ok
    · exact hl hx
  refine C83_others_partial py"torchvision" cfg cfg_ok named ?_ [] _ _ hb torch_ok ?_
    ⟨_, by rw [hb]; simp, torch_ok, py"torch", by decide +kernel, by decide⟩ ⟨_, by rw [hb]; simp, hT, py"torch", by decide +kernel, by decide⟩
    [py"abs"] _ rfl (by simp [Proper]) _ (Or.inr rfl) rfl (fun _ => rfl) rfl (by decide) r hr
    (by rw [hn]; exact Pipeline.canonical_none (by decide) (by decide +kernel)) (by decide)
    ⟨fun x hx => ⟨?_, hO _ (by decide) x hx, ?_⟩, by decide⟩ ⟨fun x hx => ⟨?_, hO _ (by rw [hn]; decide) x hx, ?_⟩, by rw [hn]; decide⟩
    ?_ hit src
  · intro i hi
    simp only [named, PBlock.imps, Imports.PStmt.imps, List.mem_append, List.mem_cons, List.not_mem_nil, or_false] at hi
    rcases hi with rfl | rfl <;> exact ⟨by decide, by decide⟩
  · intro b' h1 _; simp at h1; subst h1; decide
  · revert x; decide
  · revert x; decide
  · rw [hn] at hx; revert x; decide
  · rw [hn] at hx; revert x; decide
  · intro b' h1 _ h2
    rw [hb] at h1
    rw [hn] at h2
    simp only [List.nil_append, List.mem_cons, List.not_mem_nil, or_false] at h1
    rcases h1 with rfl | rfl
    · rfl
    · exact absurd h2 (by decide)

open Ex in
/-- `torchvision.transforms.Compose` is not. -/
example (hit : Str → Str → Bool) :
    asked shipped cfg.torch (visitBlock cfg (0, false) full {}).2.file hit (dotted py"torchvision" [py"transforms", py"Compose"]) =
      .ok (some (py"ChangeAPIMatcher", py"torchvision.transforms.Compose")) := by
  obtain ⟨r, hr, h⟩ := List.any_eq_true.1 compose_entry
  rw [Bool.and_eq_true, Nat.beq_eq, Nat.beq_eq] at h
  have hn : r.name = py"torchvision.transforms.Compose" := by unfold Raw.name; rw [h.1]; decide
  have hc : r.class = py"ChangeAPIMatcher" := by unfold Raw.class; rw [h.2]; decide
  have hm : r.matcher ≠ 0 := by rw [h.2]; decide
  have hbinds : ∀ b' ∈ full.binds, b' = ⟨some py"torch", 0, none, py"torch"⟩ ∨
      b' = ⟨some py"torchvision.transforms", 0, none, py"torchvision.transforms"⟩ := by
    intro b' h1
    simpa [full, PBlock.binds, PBlock.imps, Imports.PStmt.imps, Imports.Imp.binds] using h1
  rw [C83_dotted_negative cfg full ?_ ?_ ⟨_, by decide, torch_ok, py"torch", by decide +kernel, by decide⟩ r hr (by rw [hn]; decide)
    py"torchvision" [py"transforms", py"Compose"] (by rw [hn]; decide) ⟨by decide, by decide⟩ ?_ hit]
  · unfold answer
    rw [if_neg hm, if_neg (by rw [hc]; simp), hc, hn]
  · intro i hi
    simp only [full, PBlock.imps, Imports.PStmt.imps, List.mem_append, List.mem_cons, List.not_mem_nil, or_false] at hi
    rcases hi with rfl | rfl <;> exact ⟨by decide, by decide⟩
  · intro b' h1 h2
    rcases hbinds b' h1 with rfl | rfl
    · exact absurd torch_ok h2
    · decide
  · intro b' h1 h2 h3
    rcases hbinds b' h1 with rfl | rfl <;> exact absurd h3 (by decide)

open Ex in
/-- `x.abs()` in a file with `import torchvision`, with `--exclude_packages torch`. -/
example (hit : Str → Str → Bool) :
    asked shipped (torchPackages.filter fun kv => kv.1 ≠ py"torch") { torch := [py"torchvision"] } hit (.attr (.name py"x") py"abs") =
      .error .assertionError := by
  obtain ⟨r, hr, h⟩ := List.any_eq_true.1 abs_entry
  rw [Bool.and_eq_true, Nat.beq_eq, Nat.beq_eq] at h
  exact C83_methods_negative _ (by decide +kernel) _ (by simp) (by decide +kernel) (by decide) rfl py"abs" (by decide) (by decide) (by decide) r hr
    (by unfold Raw.name; rw [h.1]; decide) (by unfold Raw.class; rw [h.2]; decide) hit

end Verif.Exclude
