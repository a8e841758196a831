import Verif.Model.Custom
import Verif.Spec.Custom
import Verif.Props.Helpers

/-!
# C++ extensions of a project (C74)
-/

namespace Verif.Custom
open Verif Verif.Spec
open Verif.Helpers (FromState fromLoop applyCode extTag)

/-- The recorded classes as the specification sees them. -/
def known (g : Global) : List (Nat × Str) := g.wrappers.map fun w => (w.1, w.2.1)

theorem declared_unrelated {e : List Str} {w : List (Nat × Str)} : ∀ {l : List Item}, (∀ i ∈ l, Unrelated e w i) → declared l = []
  | [], _ => rfl
  | i :: l, h => by
    have h1 := h i (by simp)
    have h2 : declared l = [] := declared_unrelated (fun j hj => h j (List.mem_cons_of_mem _ hj))
    cases i <;> simp_all [declared, Unrelated]

theorem recordHead_other (id : Nat) (name h : Str) (p : Pre) (h1 : h ∉ p.imported.keys) (h2 : h ∉ p.loaded) :
    recordHead id name p h = p := by
  have e1 : ∀ (d : Dict Str Str) (w : Dict Nat (Str × Str)), h ∉ d.keys →
      d.foldl (fun w (a : Str × Str) => if a.1 = h then w.set id (name, extTag false a.2) else w) w = w := by
    intro d
    induction d with
    | nil => intro w _; rfl
    | cons a d ih =>
      intro w hx
      simp only [Dict.keys, List.map_cons, List.mem_cons, not_or] at hx
      rw [List.foldl_cons, if_neg (fun e => hx.1 e.symm), ih w hx.2]
  have e2 : ∀ (l : List Str) (w : Dict Nat (Str × Str)), h ∉ l →
      l.foldl (fun w l => if l = h then w.set id (name, extTag true l) else w) w = w := by
    intro l
    induction l with
    | nil => intro w _; rfl
    | cons a d ih =>
      intro w hx
      simp only [List.mem_cons, not_or] at hx
      rw [List.foldl_cons, if_neg (fun e => hx.1 e.symm), ih w hx.2]
  unfold recordHead
  simp only [e1 _ _ h1, e2 _ _ h2]

theorem preItems_unrelated (p : Pre) (w : List (Nat × Str)) (l : List Item) (h : ∀ i ∈ l, Unrelated p.g.exts w i)
    (hh : ∀ id n heads, Item.cls id n true heads ∈ l → ∀ x ∈ heads, x ∉ p.imported.keys ∧ x ∉ p.loaded) :
    preItems p l = (p, l) := by
  induction l with
  | nil => rfl
  | cons i l ih =>
    have h1 := h i (by simp)
    have : preItem p i = (p, [i]) := by
      cases i with
      | imp names =>
        obtain ⟨hne, hn⟩ := h1
        have e1 : names.filter (fun n => n.1 ∈ p.g.exts) = [] := List.filter_eq_nil_iff.2 fun n hx => by simpa using hn n hx
        have e2 : names.filter (fun n => n.1 ∉ p.g.exts) = names := List.filter_eq_self.2 fun n hx => by simpa using hn n hx
        simp only [preItem, e1, e2, hne, if_false, List.foldl_nil]
      | load x => exact absurd h1 id
      | cls id name layer heads =>
        simp only [preItem]
        split
        · next hl =>
          subst hl
          have hq := hh id name heads (by simp)
          congr 1
          clear hh h h1 ih
          induction heads with
          | nil => rfl
          | cons x t ih2 =>
            rw [List.foldl_cons, recordHead_other id name x p (hq x (by simp)).1 (hq x (by simp)).2]
            exact ih2 fun y hy => hq y (by simp [hy])
        · rfl
      | _ => rfl
    simp only [preItems, this, ih (fun j hj => h j (by simp [hj])) (fun a b c hm => hh a b c (by simp [hm])),
      List.singleton_append]

theorem fromLoop_other (as_ : Option Str) (w : List (Str × Str)) (s : FromState) (h : ∀ p ∈ w, p.1 ≠ s.name) :
    fromLoop as_ w s = s := by
  induction w with
  | nil => rfl
  | cons p w ih =>
    obtain ⟨c, e⟩ := p
    rw [fromLoop, if_neg (h (c, e) (by simp)), ih fun q hq => h q (by simp [hq])]

theorem fromNames_other (w : List (Str × Str)) (d : Dict Str Str) (names : List (Str × Option Str))
    (h : ∀ n ∈ names, ∀ p ∈ w, p.1 ≠ n.1) : fromNames w d names = (d, [], names) := by
  induction names with
  | nil => rfl
  | cons n names ih =>
    obtain ⟨n, a⟩ := n
    simp only [fromNames, fromLoop_other a w { name := n, known := d } (h (n, a) (by simp)),
      ih fun m hm => h m (by simp [hm])]
    rfl

theorem postItems_unrelated (g : Global) (e : List Str) (l : List Item) (h : ∀ i ∈ l, Unrelated e (known g) i) :
    postItems g {} l = ({}, l) := by
  induction l with
  | nil => rfl
  | cons i l ih =>
    have h1 := h i (by simp)
    have : postItem g {} i = ({}, [i]) := by
      cases i with
      | from_ m names =>
        obtain ⟨hne, hn⟩ := h1
        simp only [postItem]
        rw [fromNames_other _ _ names (by
          intro n hx p hp
          obtain ⟨q, hq, rfl⟩ := List.mem_map.1 hp
          exact hn n hx (q.1, q.2.1) (List.mem_map.2 ⟨q, hq, rfl⟩))]
        simp [hne]
      | cls id name layer heads =>
        have : g.wrappers.has id = false := by
          rw [Bool.eq_false_iff]
          intro hx
          obtain ⟨q, hq, e⟩ := List.mem_map.1 (Dict.has_iff.1 hx)
          exact h1 (q.1, q.2.1) (List.mem_map.2 ⟨q, hq, rfl⟩) e
        simp [postItem, this]
      | apply f => rfl
      | _ => rfl
    simp only [postItems, this, ih fun j hj => h j (by simp [hj]), List.singleton_append]

/-- **C74, other files.** A file that neither declares nor loads a C++ extension, imports none of those known so far, and
imports nothing under the name of a class that uses one, is not changed by the two passes, and has no effect on the
files after it. -/
theorem C74_unrelated_partial (g : Global) (items : List Item) (h : ∀ i ∈ items, Unrelated g.exts (known g) i) :
    convertFile g items = (g, items) := by
  have hd := declared_unrelated h
  unfold convertFile
  rw [hd, List.append_nil]
  have := preItems_unrelated { g := g } (known g) items h (by simp [Dict.keys])
  simp only [this, postItems_unrelated g g.exts items h]
  simp

/-- **C74, projects without extensions.** If no file declares or loads a C++ extension, no file is changed, whatever the
order of the files. -/
theorem C74_no_extensions (files : List (List Item)) (h : ∀ f ∈ files, ∀ i ∈ f, NoExtension i) :
    convertFiles {} files = ({}, files) := by
  induction files with
  | nil => rfl
  | cons f files ih =>
    have hf : convertFile {} f = ({}, f) := C74_unrelated_partial {} f (by
      intro i hi
      have := h f (by simp) i hi
      cases i <;> simp_all [NoExtension, Unrelated, known])
    simp only [convertFiles, hf, ih fun f' hf' => h f' (by simp [hf'])]

/-- A project of three files: one declares the extension `e`, one has a class `c` that uses it, one uses the class. -/
def setupFile (e : Str) : List Item := [.declare e]
def opsFile (e a c : Str) (rest : List Item) : List Item := .imp [(e, some a)] :: .cls 0 c true [a] :: rest
def useFile (m c : Str) (as_ : Option Str) : List Item := [.from_ m [(c, as_)], .apply (as_.getD c)]

/-- **C74, a use of an extension.** If the files come in the order of their dependencies, the class and the import of
the extension go away, and the use becomes a use of the extension, for all names but those of `C55_imported_negative`.
The other items of the second file do not use the extension. -/
theorem C74_used_partial (e a c m : Str) (as_ : Option Str) (rest : List Item) (hrest : ∀ i ∈ rest, Unrelated [e] [(0, c)] i)
    (hh : ∀ id n heads, Item.cls id n true heads ∈ rest → a ∉ heads) (he : Str.startsWith e py"load_" = false) :
    (convertFiles {} [setupFile e, opsFile e a c rest, useFile m c as_]).2 =
      [setupFile e, rest, [.imp [(e, none)], .code (e ++ py".custom_op_xxx")]] := by
  have h1 : convertFile {} (setupFile e) = ({ exts := [e] }, setupFile e) := rfl
  let g : Global := { exts := [e], wrappers := [(0, (c, e))] }
  have h2 : convertFile { exts := [e] } (opsFile e a c rest) = (g, rest) := by
    have hd : declared (opsFile e a c rest) = [] := by
      simp only [opsFile, declared]; exact declared_unrelated hrest
    have hp : preItems { g := { exts := [e] } } (opsFile e a c rest) =
        ({ g := g, imported := [(a, e)] }, .cls 0 c true [a] :: rest) := by
      have q1 : preItem { g := { exts := [e] } } (.imp [(e, some a)]) = ({ g := { exts := [e] }, imported := [(a, e)] }, []) := by
        simp [preItem, Dict.set]
      have q2 : preItem { g := { exts := [e] }, imported := [(a, e)] } (.cls 0 c true [a]) =
          ({ g := g, imported := [(a, e)] }, [.cls 0 c true [a]]) := by
        simp [preItem, recordHead, g, Dict.set, extTag]
      simp only [opsFile, preItems, q1, q2]
      rw [preItems_unrelated { g := g, imported := [(a, e)] } [(0, c)] rest hrest (by
        intro id n heads hm x hx
        refine ⟨?_, by simp⟩
        intro hk
        simp only [Dict.keys, List.map_cons, List.map_nil, List.mem_singleton] at hk
        exact hh id n heads hm (hk ▸ hx))]
      rfl
    have hq : postItems g {} (.cls 0 c true [a] :: rest) = ({}, rest) := by
      have : postItem g {} (.cls 0 c true [a]) = ({}, []) := rfl
      simp only [postItems, this, postItems_unrelated g [e] rest hrest, List.nil_append]
    unfold convertFile
    rw [hd]
    simp only [List.append_nil, hp, hq, List.map_nil, List.nil_append]
  have h3 : convertFile g (useFile m c as_) = (g, [.imp [(e, none)], .code (e ++ py".custom_op_xxx")]) := by
    have hk : fromNames [(c, e)] [] [(c, as_)] = ([(as_.getD c, e)], [e], []) := by
      simp [fromNames, fromLoop, he, Dict.set]
    simp [convertFile, useFile, declared, preItems, preItem, g, postItems, postItem, hk, Dict.get?, applyCode, he]
  simp only [convertFiles, h1, h2, h3]

example : (∀ i ∈ ([.other 0, .imp [(py"numpy", none)]] : List Item), Unrelated [py"lltm_cpp"] [(0, py"LLTM")] i) ∧
    Str.startsWith py"lltm_cpp" py"load_" = false := by
  constructor
  · intro i hi
    simp only [List.mem_cons, List.not_mem_nil, or_false] at hi
    rcases hi with rfl | rfl <;> simp [Unrelated]
  · decide

/-- **C74 is false of the code, order of files.** If the file with the class is converted before the one that declares
the extension, the class and its import stay, and the third file is not converted. -/
theorem C74_order_negative :
    let e := py"lltm_cpp"; let ops := opsFile e e py"LLTM" []; let use := useFile py"ops" py"LLTM" none
    (convertFiles {} [ops, setupFile e, use]).2 = [ops, setupFile e, use] ∧
    (convertFiles {} [setupFile e, ops, use]).2 ≠ [setupFile e, ops, use] := by decide +kernel

/-- **C74 is false of the code, names of classes.** A class of another module that happens to have the same name is
replaced by the extension. -/
theorem C74_name_negative :
    (convertFiles {} [setupFile py"ext", opsFile py"ext" py"ext" py"Norm" [], useFile py"another.module" py"Norm" none]).2 =
      [setupFile py"ext", [], [.imp [(py"ext", none)], .code py"ext.custom_op_xxx"]] := by decide +kernel

/-- **C74 is false of the code, uses in the same file.** The class is removed, its uses in the same file stay. -/
theorem C74_same_file_negative :
    (convertFiles {} [setupFile py"ext", opsFile py"ext" py"ext" py"Norm" [.apply py"Norm"]]).2 =
      [setupFile py"ext", [.apply py"Norm"]] := by decide +kernel

end Verif.Custom
