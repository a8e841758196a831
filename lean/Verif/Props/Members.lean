import Verif.Lemmas.Members

/-!
# C86: functions of the module `os` are left alone
-/

namespace Verif.Members
open Verif Verif.Data Verif.Dispatch
open Verif.Uses (ofText)
open Verif.Whole (Free Tail)

theorem same_eq : ∀ s t : Str, same s t = true → s = t
  | [], [], _ => rfl
  | c :: s, d :: t, h => by
    simp only [same, Bool.and_eq_true] at h
    rw [Char.toNat_inj.1 (Nat.eq_of_beq_eq_true h.1), same_eq s t h.2]
  | [], _ :: _, h => by simp [same] at h
  | _ :: _, [], h => by simp [same] at h

/-- **C86**, partial: in every file, with or without torch imports, a call of a function of `os` but `rename` and `environ.get` is left alone: nothing is counted,
reported or changed, whatever the matchers do. The name `os` must stand for the module, and `NonTorchClass` must not be an imported name. -/
theorem C86_os_partial (f : File) (hk : ∀ p ∈ f.torch, p ∈ torchPackages.keys) (hos : ∀ m, f.names.get? py"os" = some m → m = py"os")
    (hnon : f.names.get? py"NonTorchClass" = none) (hit : Str → Str → Bool) (o : Oracle) (parent : Parent) (s : Counts)
    (a : Str) (ha : a ∈ osFunctions) (hne : a ≠ py"rename") :
    visitCall shipped f hit o (dotted py"os" (Str.splitOn '.' a)) parent s = .ok (s, .kept) := by
  have ha : a ∈ otherFunctions := by
    rcases List.mem_cons.1 ha with h | h
    · exact absurd h hne
    · exact h
  have hs : Str.splitOn '.' (py"os." ++ a) = py"os" :: Str.splitOn '.' a := by
    rw [show py"os." ++ a = py"os" ++ '.' :: a from rfl, Str.splitOn_append_cons (by decide)]
  let B : Basic.Env := ⟨f, hit, fun _ => [], fun _ => none, ⟨fun _ => [], fun _ => .name [], fun _ => 0, fun _ => false⟩⟩
  have hB : fullAttrStrict f (blackList f) hit (dotted py"os" (Str.splitOn '.' a)) = B.strict (ofText (py"os." ++ a)) := by
    unfold Basic.Env.strict
    rw [Pipeline.toExpr_ofText B.src hs]
  have key : ∃ full, replaceModule f (B.strict (ofText (py"os." ++ a))) = .ok full ∧ decideCall shipped f full = .leave := by
    rcases Whole.strict_chain B (ofText (py"os." ++ a)) _ (Whole.chain_ofText _) with h | ⟨t, ht, h⟩
    · rw [show Str.join py"." (Str.splitOn '.' (py"os." ++ a)) = py"os." ++ a from Str.join_splitOn '.' _] at h
      refine ⟨py"os." ++ a, ?_, ?_⟩
      · rw [h]
        unfold replaceModule
        dsimp only
        rw [hs, List.headD_cons, if_neg (by decide)]
        cases hg : f.names.get? py"os" with
        | none => rfl
        | some m =>
          rw [hos m hg]
          dsimp only
          rw [List.drop_succ_cons, List.drop_zero, ← hs]
          rw [show Str.join py"." (Str.splitOn '.' (py"os." ++ a)) = py"os." ++ a from Str.join_splitOn '.' _]
      · have h1 : startWithTorch f (py"os." ++ a) = false := by
          rw [Bool.eq_false_iff]
          intro hx
          obtain ⟨p, hp, hx⟩ := List.any_eq_true.1 hx
          obtain ⟨r, hr⟩ := Str.startsWith_iff.1 hx
          have hd := Exclude.no_dot (hk p hp)
          have e : py"os." ++ a = p ++ '.' :: r := by rw [hr]; simp
          rw [e, Str.splitOn_append_cons hd] at hs
          simp only [List.cons.injEq] at hs
          have : py"os" ∉ torchPackages.keys := by decide +kernel
          exact this (hs.1 ▸ hk p hp)
        have h2 : inApi shipped (py"os." ++ a) = false := unlisted (by simp [heads]) ha
        have h3 : (callCandidates (py"os." ++ a)).find? (inApi shipped) = none := by
          rw [List.find?_eq_none]
          intro k hk'
          have := List.all_eq_true.1 (List.all_eq_true.1 candidates a ha) k hk'
          obtain ⟨p, hp, e⟩ := List.any_eq_true.1 this
          rw [same_eq _ _ e, unlisted hp ha]
          simp
        unfold decideCall
        rw [h1, h2, h3]
        simp
    · have hf : Free f nonTorch := {
        dot := by decide
        names := hnon
        key := by decide
        torch := by decide +kernel
        may := by decide +kernel
        einops := by rintro ⟨t, h⟩; simp [nonTorch] at h
        transformers := by rintro ⟨t, h⟩; simp [nonTorch] at h }
      refine ⟨nonTorch ++ t, by rw [h]; exact hf.replace ht, ?_⟩
      unfold decideCall
      rw [hf.startWith hk ht, hf.api ht, Whole.contains_nonTorch t]
      rfl
  obtain ⟨full, h1, h2⟩ := key
  unfold visitCall
  rw [hB, h1]
  simp only [bind, Except.bind, h2]
  rfl

/-- `import torch` / `import os` -/
def exFile : File := { names := [(py"torch", py"torch"), (py"os", py"os")], torch := [py"torch"] }

example (hit : Str → Str → Bool) (o : Oracle) (s : Counts) : visitCall shipped exFile hit o (dotted py"os" [py"path", py"join"]) .other s = .ok (s, .kept) :=
  C86_os_partial exFile (by decide +kernel) (by decide) (by decide) hit o .other s py"path.join" (by decide +kernel) (by decide)

theorem rename_entry : apiTable.any (fun r => r.key.beq (encode py"torch.Tensor.rename") && r.matcher.beq (encode py"TensorRenameMatcher")) = true := by
  decide +kernel

theorem os_rename_missing : inApi shipped py"os.rename" = false := by
  have hk : decode (encode py"os.rename") = py"os.rename" := by decide
  have a2 := Pipeline.not_decoded apiTable (·.key) _ hk (by decide +kernel)
  rw [← api_keys] at a2
  unfold inApi
  rw [Pipeline.canonical_none hk (by decide +kernel), Bool.eq_false_iff.2 (fun h => a2 (Dict.has_iff.1 h))]
  decide

/-- `parse_kwargs` adds only keys that the call has. -/
theorem parseKwargs_has (cfg : Matcher.Cfg) (k : Str) : ∀ (kws : List Matcher.Kw) (d d' : Matcher.Kwargs), Matcher.parseKwargs cfg false kws d = some d' →
    d.has (some k) = false → (∀ n ∈ kws, n.arg ≠ some k) → d'.has (some k) = false
  | [], d, d', h, hd, _ => by
    simp only [Matcher.parseKwargs, Option.some.injEq] at h
    exact h ▸ hd
  | n :: rest, d, d', h, hd, hk => by
    unfold Matcher.parseKwargs at h
    cases hn : n.arg with
    | none => rw [hn] at h; simp at h
    | some j =>
      rw [hn] at h
      dsimp only at h
      split at h
      · simp at h
      · refine parseKwargs_has cfg k rest _ d' h ?_ (fun m hm => hk m (by simp [hm]))
        have hne : some j ≠ some k := fun e => hk n (by simp) (hn.trans e)
        rw [Bool.eq_false_iff, Ne, Dict.has_iff] at hd ⊢
        intro hm
        rcases Dict.mem_keys_set.1 hm with h | h
        · exact hne h.symm
        · exact hd h

/-- C86 fails for `rename`: in a file with `import torch` and `import os`, every call of `os.rename` (its parameters are `src`, `dst`, `src_dir_fd`, `dst_dir_fd`) is
taken for `torch.Tensor.rename`, counted as an API and reported as not supported. -/
theorem C86_rename_negative (hit : Str → Str → Bool) (o : Oracle) (cfg : Matcher.Cfg) (kws : List Matcher.Kw) (parent : Parent) (s : Counts)
    (ho : o.nodes (py"TensorRenameMatcher", py"torch.Tensor.rename") = tensorRename cfg kws) (hkw : ∀ k ∈ kws, k.arg ≠ some py"columns") :
    visitCall shipped exFile hit o (dotted py"os" [py"rename"]) parent s =
      .ok ((s.found py"torch.Tensor.rename").unsupported py"*.rename", .unsupported) := by
  obtain ⟨r, hr, h⟩ := List.any_eq_true.1 rename_entry
  rw [Bool.and_eq_true, Nat.beq_eq, Nat.beq_eq] at h
  have hname : r.name = py"torch.Tensor.rename" := by unfold Raw.name; rw [h.1]; decide
  have hcls : r.class = py"TensorRenameMatcher" := by unfold Raw.class; rw [h.2]; decide
  have hm0 : r.matcher ≠ 0 := by rw [h.2]; decide
  have hne : r.name ≠ dataLoader := by rw [hname]; decide
  have hin : inApi shipped py"torch.Tensor.rename" = true := hname ▸ Exclude.listed_entry hr hne
  have hmat : getMatcher shipped shipped.api py"torch.Tensor.rename" = .ok (some (py"TensorRenameMatcher", py"torch.Tensor.rename")) := by
    rw [Exclude.matcher_of hr (by rw [← hname]; exact Exclude.canonical_entry hr hne) (hname ▸ hne), if_neg hm0, hcls, hname]
  have hfull : replaceModule exFile (fullAttrStrict exFile (blackList exFile) hit (dotted py"os" [py"rename"])) = .ok py"os.rename" := rfl
  have hdec : decideCall shipped exFile py"os.rename" = .cls py"torch.Tensor.rename" := by
    have hc : ∃ l, callCandidates py"os.rename" = py"torch.Tensor.rename" :: l := ⟨_, rfl⟩
    obtain ⟨l, hl⟩ := hc
    unfold decideCall
    rw [os_rename_missing, hl, List.find?_cons, hin]
    rfl
  have hres : tensorRename cfg kws = .nothing := by
    unfold tensorRename
    cases hp : Matcher.parseKwargs cfg false kws [] with
    | none => rfl
    | some d =>
      dsimp only
      rw [parseKwargs_has cfg py"columns" kws [] d hp rfl hkw]; rfl
  unfold visitCall
  rw [hfull]
  simp only [bind, Except.bind, hdec, hmat, Option.map_some, ho, hres, finish]
  rfl

/-- `os.rename(a, b, src_dir_fd=3)` is such a call. -/
example : ∀ k ∈ [({ arg := some py"src_dir_fd", src := py"3" } : Matcher.Kw)], k.arg ≠ some py"columns" := by decide

end Verif.Members
