import Verif.Lemmas.TemplateKept
import Verif.Lemmas.TemplateOnce
import Verif.Lemmas.TemplateCalls

namespace Verif.Template
open Verif
open Verif.Spec
open Verif.Matcher (Cfg)

theorem params_nodup {r : Data.Raw} (hr : r ∈ Data.apiTable) {m : Str × (Str → Cfg → K)} (hm : m ∈ matchers)
    (hc : m.1 = r.class) : (params r.cfg).Nodup := by
  have h := on_entry once_table hr hm hc
  simp only [onceOk, Bool.and_eq_true, decide_eq_true_eq] at h
  exact h.1

/-- What `once_table` says about the call. -/
theorem once_sound {r : Data.Raw} (hr : r ∈ Data.apiTable) {c : Call} (v : Valid r c) {o : Out} (h : Converts r c o) :
    (o = .error → r.name ∈ failing) ∧ ∀ ps, o = .code ps →
      (∀ k ∈ params r.cfg, (r.name, k) ∉ repeated → times k ps ≤ 1) ∧
      (r.name ∉ repeatedRecv → timesRecv ps ≤ 1) ∧ (isMethod r.name = true → 0 < timesRecv ps) := by
  obtain ⟨m, hm, hc, rfl⟩ := h
  have ht := on_entry once_table hr hm hc
  simp only [onceOk, Bool.and_eq_true, decide_eq_true_eq] at ht
  refine checkAll_sound (P := fun o => (o = .error → r.name ∈ failing) ∧ ∀ ps, o = .code ps →
      (∀ k ∈ params r.cfg, (r.name, k) ∉ repeated → times k ps ≤ 1) ∧
      (r.name ∉ repeatedRecv → timesRecv ps ≤ 1) ∧ (isMethod r.name = true → 0 < timesRecv ps))
    v.api ?_ ?_ ?_ ?_ (m.2 r.name r.cfg) v.complete v.single (Rel.start v.wf ht.1 v.known v.complete) ht.2
  · intro k hk; simp at hk
  · simp
  · intro hs; exact ⟨fun _ => by simpa using hs, by simp⟩
  · intro a s qs hrel hfin
    simp only [onceFin, Bool.and_eq_true, ← v.api] at hfin
    obtain ⟨⟨⟨hk, h1⟩, h2⟩, h3⟩ := hfin
    obtain ⟨w, hw⟩ := emit_known hrel hk
    refine ⟨by simp [emitOut, hw], ?_⟩
    intro ps hps
    simp only [emitOut, hw, Out.code.injEq] at hps
    subst hps
    refine ⟨fun k hkp hkr => ?_, fun hn => ?_, fun hn => ?_⟩
    · have h1 := List.all_eq_true.1 h1 k hkp
      simp only [Bool.or_eq_true, List.contains_iff_mem, decide_eq_true_eq] at h1
      exact Nat.le_trans (emit_bounds hrel (.arg k) hk hw).2 (h1.resolve_left hkr)
    · simp only [Bool.or_eq_true, List.contains_iff_mem, decide_eq_true_eq] at h2
      exact Nat.le_trans (emit_bounds hrel .recv hk hw).2 (h2.resolve_left hn)
    · simp only [hn, Bool.not_true, Bool.false_or, decide_eq_true_eq] at h3
      exact Nat.lt_of_lt_of_le h3 (emit_bounds hrel .recv hk hw).1

/-! ## C75: no argument is lost -/

/-- **C75.** Take an API of the shipped table with a modelled matcher, and a valid call of it that is replaced by code. The
code contains the text of every given argument, perhaps edited. Exceptions: the text is `None`, a boolean or a string; the
table says that the argument is dropped, or it is a hint; the argument is one of those in `lost`. -/
theorem C75_arguments_kept_partial {r : Data.Raw} (hr : r ∈ Data.apiTable) {c : Call} (v : Valid r c) {ps : List Piece}
    (h : Converts r c (.code ps)) {k t : Str} (hk : c.args.get? k = some t) (ht : ¬Plain t)
    (hd : dropped r.cfg k = false) (hl : lost r.name k = false) : 0 < times k ps := by
  obtain ⟨m, hm, hc, ho⟩ := h
  have hkey : k ∈ c.args.keys := Dict.has_iff.1 (by simp [Dict.has, hk])
  have hall := List.all_eq_true.1 (on_entry kept_table hr hm hc) k (v.known k hkey)
  simp only [hd, hl, Bool.false_or] at hall
  have hsure : ∀ j ∈ k :: required r.name, j ∈ c.args.keys := by
    intro j hj
    rcases List.mem_cons.1 hj with rfl | hj
    · exact hkey
    · exact v.complete j hj
  have := checkAll_sound (P := fun o => ∀ ps, o = .code ps → 0 < times k ps) v.api
    (fun j hj => by simp only [Option.some.injEq] at hj; subst hj; exact ⟨t, hk, ht⟩) (by simp) (fun _ => by simp)
    (fun a s qs hrel hfin => by
      simp only [keptFin, Bool.and_eq_true, decide_eq_true_eq, ← v.api] at hfin
      intro ps hps
      unfold emitOut at hps
      split at hps
      · next w hw =>
        simp only [Out.code.injEq] at hps
        subst hps
        exact Nat.lt_of_lt_of_le hfin.2 (emit_bounds hrel (.arg k) hfin.1 hw).1
      · simp at hps)
    (m.2 r.name r.cfg) hsure v.single (Rel.start v.wf (params_nodup hr hm hc) v.known hsure) hall
  exact this ps ho

theorem infix_of_times {args : Dict Str Str} {recv k t : Str} {fresh : Str → Str} (hk : args.get? k = some t)
    {ps : List Piece} (h : 0 < times k ps) :
    t <:+: Spec.print args recv fresh ps ∨ ∃ e : Edit, e.app t <:+: Spec.print args recv fresh ps := by
  obtain ⟨p, hp, hs⟩ := List.countP_pos_iff.1 h
  obtain ⟨a, b, rfl⟩ := List.append_of_mem hp
  have hpart : p.text args recv fresh <:+: Spec.print args recv fresh (a ++ p :: b) :=
    ⟨Spec.print args recv fresh a, Spec.print args recv fresh b, by simp [Spec.print]⟩
  cases p with
  | user j =>
    simp only [Piece.shows, beq_iff_eq] at hs
    subst hs
    simp only [Piece.text, hk, Option.getD_some] at hpart
    exact .inl hpart
  | edited j e =>
    simp only [Piece.shows, beq_iff_eq] at hs
    subst hs
    simp only [Piece.text, hk, Option.getD_some] at hpart
    exact .inr ⟨e, hpart⟩
  | _ => simp [Piece.shows] at hs

/-- **C75.** In terms of texts: what the user wrote for the argument is in the text of the code, as it is, or without the
parentheses around it, or with `gpu` for `cuda`. -/
theorem C75_text_kept_partial {r : Data.Raw} (hr : r ∈ Data.apiTable) {c : Call} (v : Valid r c) {ps : List Piece}
    (h : Converts r c (.code ps)) {k t : Str} (hk : c.args.get? k = some t) (ht : ¬Plain t)
    (hd : dropped r.cfg k = false) (hl : lost r.name k = false) :
    t <:+: Spec.print c.args c.recv c.fresh ps ∨ ∃ e : Edit, e.app t <:+: Spec.print c.args c.recv c.fresh ps :=
  infix_of_times hk (C75_arguments_kept_partial hr v h hk ht hd hl)

/-- **C75.** The receiver of a method call is in the code. -/
theorem C75_receiver_kept_partial {r : Data.Raw} (hr : r ∈ Data.apiTable) (hm : isMethod r.name = true) {c : Call}
    (v : Valid r c) {ps : List Piece} (h : Converts r c (.code ps)) : 0 < timesRecv ps :=
  ((once_sound hr v h).2 ps rfl).2.2 hm

set_option maxRecDepth 100000 in
example : ∃ r ∈ Data.apiTable, r.name = py"torch.addcmul" ∧ ∃ c ps, Valid r c ∧ Converts r c (.code ps) ∧
    c.args.get? py"tensor1" = some py"f(a)" ∧ ¬Plain py"f(a)" ∧ dropped r.cfg py"tensor1" = false ∧
    lost r.name py"tensor1" = false ∧ Spec.print c.args c.recv c.fresh ps = py"\npaddle.add(x, (2) * f(a) * b)\n" := by
  obtain ⟨r, hr, hn, h⟩ := someEntry_sound (a := py"torch.addcmul") (by decide +kernel) (f := fun r =>
    decide (Valid r (callOf r [(py"input", py"x"), (py"tensor1", py"f(a)"), (py"tensor2", py"b"), (py"value", py"(2)")])) &&
      !dropped r.cfg py"tensor1" && !lost r.name py"tensor1" &&
      codeWith r (callOf r [(py"input", py"x"), (py"tensor1", py"f(a)"), (py"tensor2", py"b"), (py"value", py"(2)")])
        fun ps => Spec.print [(py"input", py"x"), (py"tensor1", py"f(a)"), (py"tensor2", py"b"), (py"value", py"(2)")]
          py"r" (fun s => s ++ py"_0") ps == py"\npaddle.add(x, (2) * f(a) * b)\n") (by decide +kernel)
  simp only [Bool.and_eq_true, decide_eq_true_eq, Bool.not_eq_true'] at h
  obtain ⟨ps, hps, ht⟩ := converts_of h.2
  exact ⟨r, hr, hn, _, ps, h.1.1.1, hps, by simp only [callOf]; decide, by decide, h.1.1.2, h.1.2, eq_of_beq ht⟩

/-! ## C76: every argument is evaluated once -/

/-- **C76.** The code for a valid call contains the text of an argument at most once, unless the argument is one of those in
`repeated`. -/
theorem C76_arguments_once_partial {r : Data.Raw} (hr : r ∈ Data.apiTable) {c : Call} (v : Valid r c) {ps : List Piece}
    (h : Converts r c (.code ps)) {k : Str} (hk : k ∈ c.args.keys) (hn : (r.name, k) ∉ repeated) : times k ps ≤ 1 :=
  ((once_sound hr v h).2 ps rfl).1 k (v.known k hk) hn

/-- **C76.** The receiver is written at most once, except for the methods in `repeatedRecv`. -/
theorem C76_receiver_once_partial {r : Data.Raw} (hr : r ∈ Data.apiTable) {c : Call} (v : Valid r c) {ps : List Piece}
    (h : Converts r c (.code ps)) (hn : r.name ∉ repeatedRecv) : timesRecv ps ≤ 1 :=
  ((once_sound hr v h).2 ps rfl).2.1 hn

/-! ## C77: a valid call does not make the matcher fail -/

/-- **C77.** A valid call does not make the matcher raise an exception, for all of the APIs with a modelled matcher but
those in `failing`. -/
theorem C77_no_error_partial {r : Data.Raw} (hr : r ∈ Data.apiTable) (hf : r.name ∉ failing) {c : Call} (v : Valid r c) :
    ¬Converts r c .error := fun h => hf ((once_sound hr v h).1 rfl)

set_option maxRecDepth 100000 in
example : ∃ r ∈ Data.apiTable, r.name = py"torch.Tensor.addmv" ∧ isMethod r.name = true ∧ r.name ∉ failing ∧
    r.name ∉ repeatedRecv ∧ (r.name, py"vec") ∉ repeated ∧ ∃ c ps, Valid r c ∧ Converts r c (.code ps) ∧
    py"vec" ∈ c.args.keys ∧ Spec.print c.args c.recv c.fresh ps = py"\npaddle.add((2)*r, 1*paddle.mm(m, g(v)))\n" := by
  obtain ⟨r, hr, hn, h⟩ := someEntry_sound (a := py"torch.Tensor.addmv") (by decide +kernel) (f := fun r =>
    decide (isMethod r.name = true ∧ r.name ∉ failing ∧ r.name ∉ repeatedRecv ∧ (r.name, py"vec") ∉ repeated ∧
      Valid r (callOf r [(py"mat", py"m"), (py"vec", py"g(v)"), (py"beta", py"(2)")])) &&
      codeWith r (callOf r [(py"mat", py"m"), (py"vec", py"g(v)"), (py"beta", py"(2)")])
        fun ps => Spec.print [(py"mat", py"m"), (py"vec", py"g(v)"), (py"beta", py"(2)")]
          py"r" (fun s => s ++ py"_0") ps == py"\npaddle.add((2)*r, 1*paddle.mm(m, g(v)))\n") (by decide +kernel)
  simp only [Bool.and_eq_true, decide_eq_true_eq] at h
  obtain ⟨ps, hps, ht⟩ := converts_of h.2
  exact ⟨r, hr, hn, h.1.1, h.1.2.1, h.1.2.2.1, h.1.2.2.2.1, _, ps, h.1.2.2.2.2, hps, by simp only [callOf]; decide, eq_of_beq ht⟩

end Verif.Template
