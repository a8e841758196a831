import Verif.Lemmas.TemplateParse
import Verif.Props.Template
import Verif.Lemmas.PythonLines

/-! # C78: the code of the matchers is Python -/

namespace Verif.Template
open Verif
open Verif.Spec
open Verif.Spec.Python
open Verif.Matcher (Cfg)

theorem apiVal_all {P : Piece → Prop} (hc : ∀ s, P (.code s)) (hr : P .recv) (name : Str) (cfg : Cfg) :
    ∀ p ∈ apiVal name cfg, P p := by
  intro p hp
  unfold apiVal at hp
  split at hp
  · simp only [List.mem_singleton] at hp; subst hp; exact hc _
  · split at hp
    · simp only [List.mem_cons, List.not_mem_nil, or_false] at hp
      rcases hp with rfl | rfl
      · exact hr
      · exact hc _
    · simp only [List.mem_singleton] at hp; subst hp; exact hc _

/-- Only given arguments are in the code. -/
def Given (c : Call) : Piece → Prop
  | .user k | .edited k _ => k ∈ c.args.keys
  | _ => True

theorem start_all {P : Piece → Prop} {c : Call} (h : ∀ k ∈ c.args.keys, P (.user k)) : c.start.All P := by
  refine ⟨fun kv hkv p hp => ?_, by simp [Call.start]⟩
  obtain ⟨x, hx, rfl⟩ := List.mem_map.1 hkv
  simp only [List.mem_singleton] at hp
  subst hp
  exact h _ (List.mem_map.2 ⟨x, hx, rfl⟩)

theorem given {r : Data.Raw} {c : Call} (v : Valid r c) {ps : List Piece} (h : Converts r c (.code ps)) :
    ∀ p ∈ ps, Given c p := by
  obtain ⟨m, -, -, h⟩ := h
  exact run_all ⟨fun _ => trivial, trivial, fun _ => trivial,
    v.api ▸ apiVal_all (fun _ => trivial) trivial _ _⟩ _ (.inr fun _ _ h => h) (start_all fun k hk => hk) h

theorem Rel.all {c : Call} {a : A} {s : St} (h : Rel c a s) {P : Piece → Prop} (h1 : ∀ e ∈ a.ents, ∀ p ∈ e.val, P p)
    (h2 : ∀ kv ∈ a.loc, ∀ p ∈ kv.2, P p) : s.All P := by
  refine ⟨fun kv hkv => ?_, fun kv hkv => h2 kv (h.loc ▸ hkv)⟩
  obtain ⟨e, he, rfl⟩ := List.mem_map.1 (h.perm.mem_iff.1 hkv)
  exact h1 e (List.mem_filter.1 he).1

theorem quiet_digits {t : Str} (h : Tst.holds .digits t = true) : Quiet (Edit.app .strip t) := by
  intro c hc
  simp only [Tst.holds, Bool.and_eq_true] at h
  have := List.all_eq_true.1 h.2 c hc
  simp only [Char.isDigit, Bool.and_eq_true, decide_eq_true_eq, ge_iff_le, UInt32.le_iff_toNat_le] at this
  have h1 : 48 ≤ c.toNat := this.1
  have h2 : c.toNat ≤ 57 := this.2
  refine ⟨?_, by omega, by omega⟩
  unfold kind
  generalize c.toNat = n at h1 h2
  have : ∀ n, 48 ≤ n → n ≤ 57 → kindOf n ≠ .quote := by
    intro n h1 h2
    have : n = 48 ∨ n = 49 ∨ n = 50 ∨ n = 51 ∨ n = 52 ∨ n = 53 ∨ n = 54 ∨ n = 55 ∨ n = 56 ∨ n = 57 := by omega
    rcases this with rfl | rfl | rfl | rfl | rfl | rfl | rfl | rfl | rfl | rfl <;> decide
  exact this n h1 h2

/-- Only this argument is in the code. -/
def Dev : Piece → Prop
  | .user k | .edited k .strip => k = py"device"
  | _ => True

theorem run_set (c : Call) (k : Str) (qs : List Q) (next : K) (s : St) : (K.set k qs next).run c s =
    match evalAll c s qs with
    | some v => next.run c { s with kw := s.kw.set k v }
    | none => .error := rfl

theorem run_has (c : Call) (k : Str) (a b : K) (s : St) :
    (K.has k a b).run c s = if s.kw.has k then a.run c s else b.run c s := rfl

theorem run_pop (c : Call) (k x : Str) (next : K) (s : St) : (K.pop k x next).run c s =
    match evalAll c s [.arg k] with
    | some v => next.run c { kw := s.kw.erase k, loc := s.loc.set x v }
    | none => .error := rfl

theorem run_ask (c : Call) (q : Q) (t : Tst) (a b : K) (s : St) : (K.ask q t a b).run c s =
    match q.eval c s with
    | some v => if t.holds (c.text v) then a.run c s else b.run c s
    | none => .error := rfl

/-- A number of a device is written into a string. -/
theorem device_quiet {name : Str} {cfg : Cfg} {c : Call} (hwf : c.args.WF) (hk : ∀ k ∈ c.args.keys, k ∈ params cfg)
    (hreq : ∀ k ∈ required name, k ∈ c.args.keys)
    (hex : ∀ p ∈ exclusive name, p.1 ∈ c.args.keys → p.2 ∉ c.args.keys)
    (hapi : c.api = apiVal name cfg) {g : K} (hd : deviceOk name cfg g = true) {ps : List Piece}
    (h : g.out c = .code ps) : ∀ k, .edited k .strip ∈ ps → Quiet (Edit.app .strip ((c.args.get? k).getD [])) := by
  simp only [deviceOk, Bool.and_eq_true, decide_eq_true_eq] at hd
  obtain ⟨⟨hpar, rfl⟩, hchk⟩ := hd
  have hkey : ∀ k ∈ c.args.keys, k = py"device" := fun k hk' => by
    have := hk k hk'; rw [hpar] at this; simpa using this
  -- no number
  have htext : ∀ {ps}, (device2StrText cfg).out c = .code ps → ∀ p ∈ ps, stripped p = false := by
    have := checkAll_sound (P := fun o => ∀ ps, o = .code ps → ∀ p ∈ ps, stripped p = false) hapi
      (x := ⟨apiVal name cfg, false, none, plainFin⟩) (fun _ h => by simp at h) (by simp) (fun _ => by simp)
      (fun a s qs hrel hfin => by
        simp only [plainFin, Bool.and_eq_true, List.all_eq_true, Bool.not_eq_true'] at hfin
        intro ps hps
        unfold emitOut at hps
        split at hps
        · next w hw =>
          simp only [Out.code.injEq] at hps
          subst hps
          exact evalAll_all (P := fun p => stripped p = false) ⟨fun _ => rfl, rfl, fun _ => rfl,
            hapi ▸ apiVal_all (P := fun p => stripped p = false) (fun _ => rfl) rfl _ _⟩ (hrel.all hfin.1.2 hfin.2)
            (.inl (by simpa [List.all_eq_true] using hfin.1.1)) hw
        · simp at hps)
      (device2StrText cfg) hreq hex
      (Rel.start hwf (by rw [hpar]; simp) hk hreq) hchk
    exact fun {ps} h => this ps h
  have hplain : ∀ {ps : List Piece}, (∀ p ∈ ps, stripped p = false) → ∀ k, .edited k .strip ∈ ps →
      Quiet (Edit.app .strip ((c.args.get? k).getD [])) := fun h k hk => by simpa [stripped] using h _ hk
  rw [K.out, device2Str, run_has, run_pop] at h
  rw [K.out, device2StrText, run_has, run_pop] at htext
  split at h
  · next hdev =>
    simp only [hdev, if_true] at htext
    split at h
    · next w hw =>
      rw [hw] at htext
      dsimp only at htext
      rw [run_ask] at h htext
      split at h
      · next v hv =>
        rw [hv] at htext
        dsimp only at htext
        by_cases hdig : Tst.holds .digits (c.text v) = true
        · rw [if_pos hdig] at h
          have hw1 : w = [.user py"device"] := by
            simp only [evalAll, Q.eval] at hw
            split at hw
            · next x y hx hy =>
              simp only [Option.some.injEq] at hy hw
              subst hy; subst hw
              have : ∀ {d : Dict Str Str} {x : Val}, Dict.get? (d.map fun kv => (kv.1, [Piece.user kv.1])) py"device" = some x →
                  x = [.user py"device"] := by
                intro d
                induction d with
                | nil => simp
                | cons kv d ih =>
                  intro x hx
                  simp only [List.map_cons, Dict.get?] at hx
                  split at hx
                  · next e => simp only [Option.some.injEq] at hx; rw [← hx, e]
                  · exact ih hx
              rw [this hx]; simp
            · simp at hw
          have hv1 : v = [.user py"device"] := by
            simp only [Q.eval, Call.start, Dict.set, Dict.get?, if_true, Option.some.injEq] at hv
            rw [← hv, hw1]
          have hq : Quiet (Edit.app .strip ((c.args.get? py"device").getD [])) := by
            have := quiet_digits hdig
            rw [hv1] at this
            simpa [Call.text, Spec.print, Piece.text] using this
          have hadd : Adds Dev c := ⟨fun _ => trivial, trivial, fun _ => trivial,
                hapi ▸ apiVal_all (fun _ => trivial) trivial _ _⟩
          have hst : St.All Dev { c.start with kw := c.start.kw.erase py"device", loc := c.start.loc.set py"d" w } := by
            have := start_all (c := c) (P := Dev) hkey
            refine ⟨fun kv hkv => this.1 kv (erase_mem hkv), fun kv hkv p hp => ?_⟩
            rcases set_mem hkv with rfl | hkv
            · rw [hw1] at hp; simp only [List.mem_singleton] at hp; subst hp; rfl
            · simp [Call.start] at hkv
          have := run_all hadd (.set py"device" [.lit py"'gpu:", .edit .strip py"d", .lit py"'"] (generic cfg))
            (.inr fun k e h => by cases e <;> first | exact h | trivial) hst (ps := ps) (by rw [run_set]; exact h)
          intro k hk
          have hdk : k = py"device" := this _ hk
          rw [hdk]; exact hq
        · rw [if_neg hdig] at h
          rw [if_neg hdig] at htext
          exact hplain (htext h)
      · simp at h
    · simp at h
  · next hdev =>
    simp only [hdev] at htext
    exact hplain (htext (by simpa using h))

/-- **C78.** Take an API of the shipped table with a modelled matcher, and a valid call of it that is replaced by code. Let the
arguments and the receiver be expressions that need no parentheses around them, as `astor` prints them, and let
`get_unique_name` make names from names. If the matcher removes parentheses from an argument, or writes `gpu` for `cuda` in
it, let it still be an expression of this kind, or a number. For `torch.index_copy`, let the argument `input` be something
that can be assigned to. Then the text of the code can be parsed, and its last line is an expression. -/
theorem C78_code_parses_partial {r : Data.Raw} (hr : r ∈ Data.apiTable) {c : Call} (v : Valid r c)
    {ps : List Piece} (h : Converts r c (.code ps)) (harg : ∀ k t, c.args.get? k = some t → Expr 14 t) (hrecv : Expr 14 c.recv)
    (hfresh : ∀ s, Name s → Name (c.fresh s))
    (hedit : ∀ k t e, c.args.get? k = some t → .edited k e ∈ ps → Expr 13 (e.app t))
    (hcopy : r.name = py"torch.index_copy" → ∀ t, c.args.get? py"input" = some t → Target t) :
    Code (Spec.print c.args c.recv c.fresh ps) := by
  have hgiven := given v h
  have hget : ∀ k ∈ c.args.keys, ∃ t, c.args.get? k = some t := fun k hk =>
    Option.isSome_iff_exists.1 (Dict.has_iff.2 hk)
  obtain ⟨m, hm, hc, ho⟩ := h
  have ht := on_entry code_table hr hm hc
  simp only [codeOk, Bool.and_eq_true, Bool.or_eq_true, Bool.not_eq_true'] at ht
  obtain ⟨hdev, hchk⟩ := ht
  have hok : Ok c (specialOf r.name) ps := by
    intro p hp
    have hg := hgiven p hp
    cases p with
    | code s => rfl
    | name s => exact hfresh s
    | recv =>
      have hs : inString (specialOf r.name) .recv = false := by cases specialOf r.name <;> rfl
      have ht : isTarget (specialOf r.name) .recv = false := by cases specialOf r.name <;> rfl
      simpa only [Fits, hs, ht, Bool.false_eq_true, if_false, level, Piece.text] using hrecv
    | user k =>
      obtain ⟨t, ht⟩ := hget k hg
      have hs : inString (specialOf r.name) (.user k) = false := by cases specialOf r.name <;> rfl
      simp only [Fits, hs, Bool.false_eq_true, if_false, Piece.text, ht, Option.getD_some]
      split
      · next htar =>
        unfold specialOf at htar
        split at htar
        · next he =>
          simp only [isTarget, beq_iff_eq] at htar
          exact hcopy (eq_of_beq he) t (htar ▸ ht)
        · split at htar <;> simp [isTarget] at htar
      · exact harg k t ht
    | edited k e =>
      obtain ⟨t, ht⟩ := hget k hg
      have htar : isTarget (specialOf r.name) (.edited k e) = false := by cases specialOf r.name <;> rfl
      by_cases hs : inString (specialOf r.name) (.edited k e) = true
      · simp only [Fits, hs, if_true, Piece.text]
        have he : r.name = setDeviceApi ∧ e = .strip := by
          unfold specialOf at hs
          split at hs
          · simp [inString] at hs
          · split at hs
            · next hn =>
              refine ⟨eq_of_beq hn, ?_⟩
              cases e <;> simp_all [inString, stripped]
            · simp [inString] at hs
        obtain ⟨hn, rfl⟩ := he
        have hd := hdev.resolve_left (by simp [hn])
        exact device_quiet v.wf v.known v.complete v.single v.api hd ho k hp
      · have := hedit k t e ht hp
        simpa only [Fits, if_neg hs, htar, Bool.false_eq_true, if_false, Piece.text, ht, Option.getD_some, level] using this
  have := checkAll_sound (P := fun o => ∀ ps, o = .code ps → Ok c (specialOf r.name) ps → Code (c.text ps)) v.api
    (x := ⟨apiVal r.name r.cfg, false, none, codeFin (specialOf r.name) (apiVal r.name r.cfg)⟩)
    (fun _ h => by simp at h) (by simp) (fun _ => by simp)
    (fun a s qs hrel hfin => by
      intro ps hps hok
      unfold emitOut at hps
      split at hps
      · next w hw =>
        simp only [Out.code.injEq] at hps
        subst hps
        simp only [← v.api] at hfin
        exact codeFin_sound hrel hfin hw hok
      · simp at hps)
    (m.2 r.name r.cfg) v.complete v.single (Rel.start v.wf (params_nodup hr hm hc) v.known v.complete) hchk
  exact this ps ho hok

/-! ## Instances -/

/-- The text is found to be an expression. -/
def exprText (n : Nat) (t : Str) : Bool :=
  tight [.code t] && match alex .no .start none [.piece (.code t)] with
    | some as => whole (.e n) as
    | none => false

theorem exprText_sound {n : Nat} {t : Str} (h : exprText n t = true) : Expr n t := by
  simp only [exprText, Bool.and_eq_true] at h
  obtain ⟨ht, h⟩ := h
  split at h
  · next as ha =>
    obtain ⟨⟨ts, hl, hr⟩, -⟩ := alex_sound (xs := [(.piece (.code t), t)]) (by simp [Fits]) (by simp) ha
    simp only [List.flatMap_cons, List.flatMap_nil, List.append_nil] at hl
    refine ⟨fun c u e => ?_, ts, hl, whole_sound h _ (hr.join 0)⟩
    subst e
    simpa only [tight, Bool.not_eq_true', Bool.or_eq_false_iff, beq_eq_false_iff_ne] using ht
  · simp at h

theorem exprArgs {n : Nat} {args : Dict Str Str} (h : (args.all fun kv => exprText n kv.2) = true) :
    ∀ k t, args.get? k = some t → Expr n t := fun _ _ hk => exprText_sound (List.all_eq_true.1 h _ (get_mem hk))

theorem fresh_name {s : Str} (h : Name s) : Name (s ++ py"_0") := by
  obtain ⟨-, c, u, rfl, hc, hu⟩ := h
  refine ⟨?_, c, u ++ py"_0", rfl, hc, ?_⟩
  · have h1 : ∀ w ∈ keywords ++ [py"True", py"False", py"None"], w.getLast? ≠ some '0' := by decide
    have h2 : ∀ l : List Str, (∀ w ∈ l, w.getLast? ≠ some '0') → l.contains (c :: u ++ py"_0") = false := by
      intro l hl
      simp only [List.contains_eq_mem, decide_eq_false_iff_not]
      intro hm
      exact hl _ hm (by rw [show (c :: u ++ py"_0") = (c :: u ++ py"_") ++ py"0" by simp, List.getLast?_append]; rfl)
    unfold name value
    rw [h2 _ fun w hw => h1 w (List.mem_append_left _ hw), h2 _ fun w hw => h1 w (List.mem_append_right _ hw)]
    rfl
  · intro d hd
    rcases List.mem_append.1 hd with hd | hd
    · exact hu d hd
    · simp only [List.mem_cons, List.not_mem_nil, or_false] at hd
      rcases hd with rfl | rfl <;> decide

/-- An edited argument. -/
example : ∃ r ∈ Data.apiTable, ∃ c ps, Valid r c ∧ Converts r c (.code ps) ∧ (∀ k t, c.args.get? k = some t → Expr 14 t) ∧
    Expr 14 c.recv ∧ (∀ s, Name s → Name (c.fresh s)) ∧
    (∀ k t e, c.args.get? k = some t → .edited k e ∈ ps → Expr 13 (e.app t)) ∧
    (r.name = py"torch.index_copy" → ∀ t, c.args.get? py"input" = some t → Target t) ∧
    Spec.print c.args c.recv c.fresh ps =
      py"\nout_0 = paddle.sparse.sparse_coo_tensor(indices=i, values=f(v))\nout_0.stop_gradient = not True\nout_0\n" := by
  obtain ⟨r, hr, hn, h⟩ := someEntry_sound (a := py"torch.sparse_coo_tensor") (by decide +kernel) (f := fun r =>
    decide (Valid r (callOf r [(py"indices", py"i"), (py"values", py"f(v)"), (py"requires_grad", py"(True)")])) &&
      codeWith r (callOf r [(py"indices", py"i"), (py"values", py"f(v)"), (py"requires_grad", py"(True)")]) fun ps =>
        (ps.all fun p => match p with
          | .edited k e => exprText 13 (e.app ((Dict.get? [(py"indices", py"i"), (py"values", py"f(v)"), (py"requires_grad", py"(True)")] k).getD []))
          | _ => true) &&
        Spec.print [(py"indices", py"i"), (py"values", py"f(v)"), (py"requires_grad", py"(True)")] py"r" (fun s => s ++ py"_0") ps ==
          py"\nout_0 = paddle.sparse.sparse_coo_tensor(indices=i, values=f(v))\nout_0.stop_gradient = not True\nout_0\n")
    (by decide +kernel)
  simp only [Bool.and_eq_true, decide_eq_true_eq] at h
  obtain ⟨ps, hps, ht⟩ := converts_of h.2
  rw [Bool.and_eq_true] at ht
  refine ⟨r, hr, _, ps, h.1, hps, exprArgs (by simp only [callOf]; decide +kernel), exprText_sound (t := py"r") (by decide +kernel),
    fun s => fresh_name, fun k t e hk he => ?_, fun e => absurd (hn.symm.trans e) (by decide), eq_of_beq ht.2⟩
  have := List.all_eq_true.1 ht.1 _ he
  simp only [callOf] at hk
  dsimp only at this
  rw [hk] at this
  exact exprText_sound this

/-- An argument that is assigned to. -/
example : ∃ r ∈ Data.apiTable, r.name = py"torch.index_copy" ∧ ∃ c ps, Valid r c ∧ Converts r c (.code ps) ∧
    (∀ k t, c.args.get? k = some t → Expr 14 t) ∧ (∀ k e, .edited k e ∉ ps) ∧
    ∀ t, c.args.get? py"input" = some t → Target t := by
  obtain ⟨r, hr, hn, h⟩ := someEntry_sound (a := py"torch.index_copy") (by decide +kernel) (f := fun r =>
    decide (Valid r (callOf r [(py"input", py"self.x"), (py"dim", py"(1)"), (py"index", py"f(i)"), (py"source", py"s")])) &&
      codeWith r (callOf r [(py"input", py"self.x"), (py"dim", py"(1)"), (py"index", py"f(i)"), (py"source", py"s")]) fun ps => ps.all fun p => match p with
        | .edited _ _ => false
        | _ => true) (by decide +kernel)
  simp only [Bool.and_eq_true, decide_eq_true_eq] at h
  obtain ⟨ps, hps, ht⟩ := converts_of h.2
  refine ⟨r, hr, hn, _, ps, h.1, hps, exprArgs (by simp only [callOf]; decide +kernel), fun k e he => ?_, fun t hk => ?_⟩
  · simpa using List.all_eq_true.1 ht _ he
  · simp only [callOf, Dict.get?, if_true, Option.some.injEq] at hk
    subst hk
    refine ⟨fun c u e => ?_, [.word py"self", .op py".", .word py"x"], by decide, .attrTarget (a := [.word py"self"]) (.val (by decide)) (by decide)⟩
    simp only [List.cons.injEq] at e
    rw [← e.1]; decide

/-- **C78** is false without the condition on edited arguments. For `torch.sparse_coo_tensor(i, v, requires_grad=f(x))` the closing
parenthesis of `f(x)` is removed. -/
theorem C78_code_parses_negative : ∃ r ∈ Data.apiTable, r.name = py"torch.sparse_coo_tensor" ∧ ∃ c ps, Valid r c ∧
    Converts r c (.code ps) ∧ c.args = [(py"indices", py"i"), (py"values", py"v"), (py"requires_grad", py"f(x)")] ∧
    (∀ k t, c.args.get? k = some t → Expr 14 t) ∧ Expr 14 c.recv ∧ (∀ s, Name s → Name (c.fresh s)) ∧
    ¬Code (Spec.print c.args c.recv c.fresh ps) := by
  obtain ⟨r, hr, hn, h⟩ := someEntry_sound (a := py"torch.sparse_coo_tensor") (by decide +kernel) (f := fun r =>
    decide (Valid r (callOf r [(py"indices", py"i"), (py"values", py"v"), (py"requires_grad", py"f(x)")])) &&
      codeWith r (callOf r [(py"indices", py"i"), (py"values", py"v"), (py"requires_grad", py"f(x)")]) fun ps => wrong (Spec.print [(py"indices", py"i"), (py"values", py"v"), (py"requires_grad", py"f(x)")] py"r" (fun s => s ++ py"_0") ps)) (by decide +kernel)
  simp only [Bool.and_eq_true, decide_eq_true_eq] at h
  obtain ⟨ps, hps, ht⟩ := converts_of h.2
  exact ⟨r, hr, hn, _, ps, h.1, hps, rfl, exprArgs (by simp only [callOf]; decide +kernel), exprText_sound (t := py"r") (by decide +kernel),
    fun s => fresh_name, wrong_sound ht⟩

/-- **C78** is false for `torch.index_copy(f(x), 1, i, s)`: the code assigns to `f(x)`. -/
theorem C78_index_copy_negative : ∃ r ∈ Data.apiTable, r.name = py"torch.index_copy" ∧ ∃ c ps, Valid r c ∧
    Converts r c (.code ps) ∧ c.args = [(py"input", py"f(x)"), (py"dim", py"(1)"), (py"index", py"i"), (py"source", py"s")] ∧
    (∀ k t, c.args.get? k = some t → Expr 14 t) ∧ Expr 14 c.recv ∧ (∀ s, Name s → Name (c.fresh s)) ∧
    (∀ k e, .edited k e ∉ ps) ∧ ¬Code (Spec.print c.args c.recv c.fresh ps) := by
  obtain ⟨r, hr, hn, h⟩ := someEntry_sound (a := py"torch.index_copy") (by decide +kernel) (f := fun r =>
    decide (Valid r (callOf r [(py"input", py"f(x)"), (py"dim", py"(1)"), (py"index", py"i"), (py"source", py"s")])) &&
      codeWith r (callOf r [(py"input", py"f(x)"), (py"dim", py"(1)"), (py"index", py"i"), (py"source", py"s")]) fun ps =>
        (ps.all fun p => match p with
          | .edited _ _ => false
          | _ => true) && wrong (Spec.print [(py"input", py"f(x)"), (py"dim", py"(1)"), (py"index", py"i"), (py"source", py"s")] py"r" (fun s => s ++ py"_0") ps)) (by decide +kernel)
  simp only [Bool.and_eq_true, decide_eq_true_eq] at h
  obtain ⟨ps, hps, ht⟩ := converts_of h.2
  rw [Bool.and_eq_true] at ht
  exact ⟨r, hr, hn, _, ps, h.1, hps, rfl, exprArgs (by simp only [callOf]; decide +kernel), exprText_sound (t := py"r") (by decide +kernel),
    fun s => fresh_name, fun k e he => by simpa using List.all_eq_true.1 ht.1 _ he, wrong_sound ht.2⟩

end Verif.Template
