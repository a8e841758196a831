import Verif.Props.Template
import Verif.Props.Args

/-! C75 for the call as the user wrote it: positional arguments and keywords. -/

namespace Verif.Template
open Verif
open Verif.Spec
open Verif.Matcher

theorem scanKw_kept {cfg : Cfg} {an : Bool} {kws kept : List Kw} {f : Nat} (hc : NoSkip cfg kws)
    (h : scanKw cfg an kws = .ok kept f) :
    ∀ n ∈ kept, ∃ k, n.arg = some k ∧ k ∉ cfg.unsupport ∧ k ∈ cfg.argsList ++ cfg.overload := by
  induction kws generalizing kept f with
  | nil => simp only [scanKw, Scan.ok.injEq] at h; obtain ⟨rfl, rfl⟩ := h; simp
  | cons x rest ih =>
    unfold scanKw at h
    split at h
    · split at h <;> simp at h
    · next k hk =>
      split at h
      · next hu =>
        split at h
        · next hnone =>
          have hd : Droppable cfg x := ⟨⟨k, hk, hu⟩, hnone⟩
          cases rest with
          | nil => simp only [Scan.ok.injEq] at h; obtain ⟨rfl, rfl⟩ := h; simp
          | cons m rest' => exact absurd hd hc.1
        · simp at h
      · next hu =>
        split at h
        · simp at h
        · next hin =>
          have hc' : NoSkip cfg rest := by
            cases rest with
            | nil => trivial
            | cons m rest' => exact hc.2
          cases hs : scanKw cfg an rest with
          | refuse => rw [hs] at h; simp [Scan.cons] at h
          | misidentify => rw [hs] at h; simp [Scan.cons] at h
          | ok kept' f' =>
            rw [hs] at h
            simp only [Scan.cons, Scan.ok.injEq] at h
            obtain ⟨rfl, -⟩ := h
            intro n hn
            rcases List.mem_cons.1 hn with e | e
            · subst e; exact ⟨k, hk, hu, Decidable.not_not.1 hin⟩
            · exact ih hc' hs n e

theorem splitStar_mem {l : List Str} {g : List Str} (hg : g ∈ splitStar l) {k : Str} (hk : k ∈ g) : k ∈ l := by
  induction l generalizing g with
  | nil => simp [splitStar] at hg; subst hg; simp at hk
  | cons x xs ih =>
    unfold splitStar at hg
    split at hg
    · rcases List.mem_cons.1 hg with rfl | hg
      · simp at hk
      · exact List.mem_cons_of_mem _ (ih hg hk)
    · split at hg
      · simp only [List.mem_singleton] at hg; subst hg
        simp only [List.mem_singleton] at hk; simp [hk]
      · next p ps hp =>
        rcases List.mem_cons.1 hg with rfl | hg
        · rcases List.mem_cons.1 hk with rfl | hk
          · simp
          · exact List.mem_cons_of_mem _ (ih (by rw [hp]; simp) hk)
        · exact List.mem_cons_of_mem _ (ih (by rw [hp]; simp [hg]) hk)

theorem posArgs_mem {cfg : Cfg} {k : Str} (hk : k ∈ posArgs cfg) : k ∈ cfg.argsList := by
  unfold posArgs groups at hk
  cases h : (splitStar cfg.argsList).filter (fun g => !g.isEmpty) with
  | nil => rw [h] at hk; simp at hk
  | cons g gs =>
    rw [h] at hk
    have : g ∈ (splitStar cfg.argsList).filter (fun g => !g.isEmpty) := by rw [h]; simp
    exact splitStar_mem (List.mem_filter.1 this).1 hk

/-- The names are those of the parsed arguments. -/
def Named (d : Kwargs) (a : Dict Str Str) : Prop := d = a.map fun kv => (some kv.1, kv.2)

theorem named_get {d : Kwargs} {a : Dict Str Str} (h : Named d a) (k : Str) : a.get? k = d.get? (some k) := by
  unfold Named at h
  subst h
  induction a with
  | nil => rfl
  | cons x xs ih =>
    simp only [List.map_cons, Dict.get?, ih]
    by_cases hx : x.1 = k <;> simp [hx]

theorem named_exists {d : Kwargs} (h : ∀ o ∈ d.keys, ∃ k, o = some k) : ∃ a, Named d a := by
  induction d with
  | nil => exact ⟨[], rfl⟩
  | cons x xs ih =>
    obtain ⟨a, ha⟩ := ih fun o ho => h o (by simp only [Dict.keys, List.map_cons, List.mem_cons]; exact .inr ho)
    obtain ⟨k, hk⟩ := h x.1 (by simp [Dict.keys])
    unfold Named at ha
    exact ⟨(k, x.2) :: a, by unfold Named; rw [List.map_cons, ← ha, ← hk]⟩

theorem named_keys {d : Kwargs} {a : Dict Str Str} (h : Named d a) : d.keys = a.keys.map some := by
  unfold Named at h; subst h; simp [Dict.keys, Function.comp_def]

/-- The text, perhaps edited, is part of the code. -/
def Shown (t code : Str) : Prop := t <:+: code ∨ ∃ e : Edit, e.app t <:+: code

/-- What a successful parse gives. -/
theorem parsed {cfg : Cfg} {args : List Arg} {kws : List Kw} {d : Kwargs} (hp : parseArgs cfg args kws = .ok d)
    (hnd : (((posArgs cfg).take args.length).map some ++ kws.map (·.arg)).Nodup) (hsk : NoSkip cfg kws)
    (hst : ∀ k, some k ∈ d.keys → k.headD ' ' ≠ '*') :
    ∃ a, Named d a ∧ a.WF ∧ (∀ k ∈ a.keys, k ∈ params cfg) ∧
      (∀ i (hi : i < args.length) k, (posArgs cfg)[i]? = some k → a.get? k = some args[i].src) ∧
      ∀ n ∈ kws, ∀ k, n.arg = some k → k ∉ cfg.unsupport → a.get? k = some n.src := by
  obtain ⟨kept, f, h1, h2, -, -, h3, h4, -⟩ := parse_ok hp
  have hkept := scanKw_kept hsk h1
  have hrem := (scanKw_removed h1).1
  have hsub : (kept.map (·.arg)).Sublist (kws.map (·.arg)) := by
    clear * - hrem
    induction hrem with
    | nil => simp
    | keep n _ ih => simpa using ih
    | drop n _ _ ih => exact ih.cons _
  have hz : (posArgs cfg).zip args = ((posArgs cfg).take args.length).zip args := by
    rw [List.zip_eq_zip_take_min]
    conv => rhs; rw [List.zip_eq_zip_take_min]
    simp [Nat.min_eq_right h2, List.take_take]
  have hpos : (posBindings (posArgs cfg) args).map Prod.fst = ((posArgs cfg).take args.length).map some := by
    have := List.map_fst_zip (l₁ := (posArgs cfg).take args.length) (l₂ := args)
      (by rw [List.length_take]; exact Nat.min_le_left _ _)
    simp only [posBindings, List.map_map, Function.comp_def, hz]
    conv => rhs; rw [← this]
    simp
  have hk : (kwBindings kept).map Prod.fst = kept.map (·.arg) := by simp [kwBindings]
  have hnd' : ((posBindings (posArgs cfg) args ++ kwBindings kept).map Prod.fst).Nodup := by
    rw [List.map_append, hpos, hk]
    exact List.Nodup.sublist (List.Sublist.append (List.Sublist.refl _) hsub) hnd
  have hd : d = posBindings (posArgs cfg) args ++ kwBindings kept := by
    rw [h3, Dict.update_fresh]
    · simp
    · simpa [Dict.keys] using hnd'
  have hkeys : ∀ o ∈ d.keys, ∃ k, o = some k ∧ k ∉ cfg.unsupport ∧ k ∈ cfg.argsList ++ cfg.overload := by
    intro o ho
    rw [hd] at ho
    simp only [Dict.keys, List.map_append, hpos, hk, List.mem_append, List.mem_map] at ho
    rcases ho with ⟨k, hm, rfl⟩ | ⟨n, hn, rfl⟩
    · exact ⟨k, rfl, h4 k hm, by simp [posArgs_mem (List.mem_of_mem_take hm)]⟩
    · exact hkept n hn
  obtain ⟨a, ha⟩ := named_exists fun o ho => (hkeys o ho).imp fun _ h => h.1
  have hak := named_keys ha
  have hwf : d.WF := by rw [hd]; exact hnd'
  have hget : ∀ {o : Option Str} {v : Str}, (o, v) ∈ d → ∀ k, o = some k → a.get? k = some v := by
    intro o v hm k hok
    rw [named_get ha, ← hok]
    exact Dict.get?_of_mem hwf hm
  refine ⟨a, ha, ?_, ?_, ?_, ?_⟩
  · have : (a.keys.map some).Nodup := by rw [← hak]; exact hwf
    exact List.Nodup.of_map _ this
  · intro k hka
    have hkd : some k ∈ d.keys := by rw [hak]; exact List.mem_map_of_mem hka
    obtain ⟨k', he, hu, hm⟩ := hkeys _ hkd
    cases he
    have hs := hst k hkd
    simp only [params, List.mem_eraseDups, List.mem_filter, hm, true_and]
    rw [Bool.and_eq_true, Bool.not_eq_true', Bool.not_eq_true']
    exact ⟨by simpa using hs, by simpa using hu⟩
  · intro i hi k hik
    refine hget ?_ k rfl
    rw [hd]
    refine List.mem_append_left _ ?_
    simp only [posBindings, List.mem_map]
    obtain ⟨hlt, hkk⟩ := List.getElem?_eq_some_iff.1 hik
    refine ⟨(k, args[i]), ?_, rfl⟩
    rw [List.mem_iff_getElem]
    exact ⟨i, by simp; omega, by simp [hkk]⟩
  · intro n hn k hnk hu
    refine hget ?_ k hnk
    rw [hd]
    refine List.mem_append_right _ (List.mem_map.2 ⟨n, ?_, rfl⟩)
    clear * - hrem hn hnk hu
    induction hrem with
    | nil => simp at hn
    | keep m _ ih =>
      rcases List.mem_cons.1 hn with rfl | hn
      · simp
      · exact List.mem_cons_of_mem _ (ih hn)
    | drop m hm _ ih =>
      rcases List.mem_cons.1 hn with rfl | hn
      · obtain ⟨⟨k', hk', hu'⟩, -⟩ := hm
        rw [hnk] at hk'
        cases hk'
        exact absurd hu' hu
      · exact ih hn

/-- **C75 for the call in the source.** Let the arguments `args` and the keywords `kws` of a call be parsed, and let them be as
PyTorch wants them: no parameter twice, the required ones given, not two that exclude each other, none collected by a
`*`-parameter. If the call is replaced by code, then the code contains the text of each positional argument and of each
keyword argument, with the exceptions of `C75_arguments_kept_partial`. -/
theorem C75_user_call_partial {r : Data.Raw} (hr : r ∈ Data.apiTable) {args : List Arg} {kws : List Kw} {d : Kwargs}
    (hp : parseArgs r.cfg args kws = .ok d)
    (hnd : (((posArgs r.cfg).take args.length).map some ++ kws.map (·.arg)).Nodup) (hsk : NoSkip r.cfg kws)
    (hst : ∀ k, some k ∈ d.keys → k.headD ' ' ≠ '*') (hreq : ∀ k ∈ required r.name, some k ∈ d.keys)
    (hex : ∀ p ∈ exclusive r.name, some p.1 ∈ d.keys → some p.2 ∉ d.keys) (recv : Str) (fresh : Str → Str) :
    ∃ a, Named d a ∧ ∀ ps, Converts r ⟨a, recv, apiVal r.name r.cfg, fresh⟩ (.code ps) →
      (∀ i (hi : i < args.length) k, (posArgs r.cfg)[i]? = some k → ¬Plain args[i].src → dropped r.cfg k = false →
        lost r.name k = false → Shown args[i].src (Spec.print a recv fresh ps)) ∧
      ∀ n ∈ kws, ∀ k, n.arg = some k → k ∉ r.cfg.unsupport → ¬Plain n.src → dropped r.cfg k = false →
        lost r.name k = false → Shown n.src (Spec.print a recv fresh ps) := by
  obtain ⟨a, ha, hwf, hknown, hpos, hkw⟩ := parsed hp hnd hsk hst
  have hak := named_keys ha
  have hmem : ∀ k, some k ∈ d.keys ↔ k ∈ a.keys := by intro k; rw [hak]; simp
  have hv : Valid r ⟨a, recv, apiVal r.name r.cfg, fresh⟩ :=
    ⟨hwf, hknown, fun k hk => (hmem k).1 (hreq k hk), fun p hpe h1 h2 => hex p hpe ((hmem _).2 h1) ((hmem _).2 h2), rfl⟩
  refine ⟨a, ha, fun ps hps => ⟨fun i hi k hik hpl hd hl => ?_, fun n hn k hnk hu hpl hd hl => ?_⟩⟩
  · exact C75_text_kept_partial hr hv hps (hpos i hi k hik) hpl hd hl
  · exact C75_text_kept_partial hr hv hps (hkw n hn k hnk hu) hpl hd hl

set_option maxRecDepth 100000 in
example : ∃ r ∈ Data.apiTable, r.name = py"torch.addcmul" ∧
    parseArgs r.cfg [⟨py"x", false⟩, ⟨py"f(a)", false⟩] [⟨some py"tensor2", py"b", false⟩, ⟨some py"value", py"v", false⟩] =
      .ok [(some py"input", py"x"), (some py"tensor1", py"f(a)"), (some py"tensor2", py"b"), (some py"value", py"v")] ∧
    (posArgs r.cfg)[1]? = some py"tensor1" ∧ required r.name = [py"tensor1", py"tensor2"] := by
  obtain ⟨r, hr, hn, h⟩ := someEntry_sound (a := py"torch.addcmul") (by decide +kernel) (f := fun r => decide (
    parseArgs r.cfg [⟨py"x", false⟩, ⟨py"f(a)", false⟩] [⟨some py"tensor2", py"b", false⟩, ⟨some py"value", py"v", false⟩] =
      .ok [(some py"input", py"x"), (some py"tensor1", py"f(a)"), (some py"tensor2", py"b"), (some py"value", py"v")] ∧
    (posArgs r.cfg)[1]? = some py"tensor1" ∧ required r.name = [py"tensor1", py"tensor2"])) (by decide +kernel)
  exact ⟨r, hr, hn, by simpa using h⟩

end Verif.Template
