import Verif.Lemmas.TemplateCalls
import Verif.Model.HelperText
import Verif.Props.Utils
import Verif.Spec.Visible

/-! Definitions in the text of a file, for C90. -/

namespace Verif.Spec.Visible
open Verif

/-! ## Cutting a file -/

theorem Fresh.of {l : Str} {ls : List Str} (h : continues l = false) : Fresh (l :: ls) := by simp [Fresh, h]

theorem Fresh.blank {b : List Str} (h : Fresh b) : Fresh ([] :: b) := by
  have hc : continues [] = true := rfl
  simp only [Fresh, List.takeWhile_cons, hc, if_true, List.mem_cons]
  exact fun l hl => hl.elim id (h l)

theorem definitions_append {a b : List Str} (h : Fresh b) : definitions (a ++ b) = definitions a ++ definitions b := by
  induction a with
  | nil => rfl
  | cons l a ih =>
    simp only [List.cons_append, definitions]
    have ht : ((a ++ b).takeWhile continues).filter (!·.isEmpty) = (a.takeWhile continues).filter (!·.isEmpty) := by
      rw [List.takeWhile_append]
      split
      · next he =>
        rw [(List.takeWhile_prefix continues).eq_of_length he, List.filter_append]
        have : (b.takeWhile continues).filter (!·.isEmpty) = [] := by
          rw [List.filter_eq_nil_iff]
          intro x hx
          simp [h x hx]
        rw [this, List.append_nil]
      · rfl
    rw [ht, ih]
    split <;> rfl

theorem opens_blank : opens [] = none := by decide

theorem definitions_blank (a : List Str) : definitions ([] :: a) = definitions a := by
  simp [definitions, opens_blank]

/-- The lines of the blocks. -/
theorem definitions_blocks {vs : List Str} {b : List Str} (hb : Fresh b) (h : ∀ v ∈ vs, Fresh (Str.splitOn '\n' v)) :
    definitions (vs.flatMap (Str.splitOn '\n') ++ b) =
      vs.flatMap (fun v => definitions (Str.splitOn '\n' v)) ++ definitions b ∧
    Fresh (vs.flatMap (Str.splitOn '\n') ++ b) := by
  induction vs with
  | nil => exact ⟨rfl, hb⟩
  | cons v vs ih =>
    obtain ⟨h1, h2⟩ := ih fun v hv => h v (List.mem_cons_of_mem _ hv)
    simp only [List.flatMap_cons, List.append_assoc]
    refine ⟨by rw [definitions_append h2, h1], ?_⟩
    intro l hl
    rw [List.takeWhile_append] at hl
    have hv := h v (List.mem_cons_self ..)
    split at hl
    · next he =>
      rcases List.mem_append.1 hl with hl | hl
      · exact hv l (by rw [(List.takeWhile_prefix continues).eq_of_length he]; exact hl)
      · exact h2 l hl
    · exact hv l hl

theorem definitions_join {ls : List Str} (h : ∀ l ∈ ls, '\n' ∉ l) :
    definitions (Str.splitOn '\n' (Str.join py"\n" ls)) = definitions ls := by
  cases ls with
  | nil => exact definitions_blank []
  | cons l ls => rw [Str.splitOn_join (by simp) h]

/-! ## The last definition -/

/-- `lookup` in a list of definitions. -/
def last (ds : List (Str × List Str)) (n : Str) : Option (List Str) := (ds.reverse.find? fun d => d.1 == n).map Prod.snd

theorem lookup_eq (ls : List Str) (n : Str) : lookup ls n = last (definitions ls) n := rfl

theorem last_append (a b : List (Str × List Str)) (n : Str) : last (a ++ b) n = (last b n).or (last a n) := by
  simp only [last, List.reverse_append, List.find?_append]
  cases List.find? _ b.reverse <;> simp

theorem last_eq_none {a : List (Str × List Str)} {n : Str} : last a n = none ↔ n ∉ a.map Prod.fst := by
  simp [last]
  constructor
  · intro h x hx; exact h n x hx rfl
  · rintro h a b hab rfl; exact h b hab

/-- Blocks that agree on a name. -/
theorem last_flatMap {α : Type} {f : α → List (Str × List Str)} {n : Str} {d : List Str} (l : List α)
    (h1 : ∀ x ∈ l, last (f x) n = none ∨ last (f x) n = some d) (h2 : ∃ x ∈ l, last (f x) n = some d) :
    last (l.flatMap f) n = some d := by
  induction l with
  | nil => obtain ⟨x, hx, -⟩ := h2; simp at hx
  | cons y l ih =>
    rw [List.flatMap_cons, last_append]
    by_cases h : ∃ x ∈ l, last (f x) n = some d
    · rw [ih (fun x hx => h1 x (List.mem_cons_of_mem _ hx)) h]; rfl
    · have : last (l.flatMap f) n = none := by
        rw [last_eq_none]
        intro hm
        simp only [List.map_flatMap, List.mem_flatMap] at hm
        obtain ⟨x, hx, hn⟩ := hm
        rcases h1 x (List.mem_cons_of_mem _ hx) with h' | h'
        · exact last_eq_none.1 h' hn
        · exact h ⟨x, hx, h'⟩
      rw [this, Option.none_or]
      obtain ⟨x, hx, hd⟩ := h2
      rcases List.mem_cons.1 hx with rfl | hx
      · exact hd
      · exact absurd ⟨x, hx, hd⟩ h

/-! ## More names that are known -/

/-- The readers that know `kn` and `kn ++ ws`. -/
structure Near (ws : List Str) (a b : Names) : Prop where
  mode : a.mode = b.mode
  bound : ∀ w, w ∈ a.bound → w ∈ b.bound ∨ w ∈ ws
  bound' : ∀ w, w ∈ b.bound → w ∈ a.bound
  reads : ∀ w, w ∈ a.reads → w ∈ b.reads ∨ w ∈ ws
  reads' : ∀ w, w ∈ b.reads → w ∈ a.reads
  targets : ∀ w, w ∈ a.targets → w ∈ b.targets ∨ w ∈ ws
  targets' : ∀ w, w ∈ b.targets → w ∈ a.targets
  missing : ∀ w, w ∈ a.missing → w ∈ b.missing ∨ w ∈ ws

theorem Near.tok {kn ws : List Str} {a b : Names} (h : Near ws a b) (t : Tok) :
    Near ws (a.tok kn t) (b.tok (kn ++ ws) t) := by
  obtain ⟨ab, ar, at_, am, ax⟩ := a
  obtain ⟨bb, br, bt, bm, bx⟩ := b
  obtain ⟨h1, h2, h3, h4, h5, h6, h7, h8⟩ := h
  simp only at h1 h2 h3 h4 h5 h6 h7 h8
  subst h1
  cases t with
  | word w =>
    simp only [Names.tok]
    split
    · exact ⟨rfl, h2, h3, h4, h5, h6, h7, h8⟩
    · split
      · exact ⟨rfl, h2, h3, h4, h5, h6, h7, h8⟩
      · refine ⟨rfl, fun x hx => ?_, fun x hx => ?_, h4, h5, h6, h7, h8⟩
        · rcases List.mem_cons.1 hx with rfl | hx
          · exact .inl (List.mem_cons_self ..)
          · exact (h2 x hx).imp_left (List.mem_cons_of_mem _)
        · rcases List.mem_cons.1 hx with rfl | hx
          · exact List.mem_cons_self ..
          · exact List.mem_cons_of_mem _ (h3 x hx)
    · split
      · exact ⟨rfl, h2, h3, h4, h5, h6, h7, h8⟩
      · split
        · exact ⟨rfl, h2, h3, h4, h5, h6, h7, h8⟩
        · by_cases hk : w ∈ kn
          · simpa [hk] using (⟨rfl, h2, h3, h4, h5, h6, h7, h8⟩ : Near ws ⟨ab, ar, at_, .plain, ax⟩ ⟨bb, br, bt, .plain, bx⟩)
          · by_cases hw : w ∈ ws
            · by_cases hb : w ∈ ab
              · simpa [hk, hw, hb] using (⟨rfl, h2, h3, h4, h5, h6, h7, h8⟩ : Near ws ⟨ab, ar, at_, .plain, ax⟩ ⟨bb, br, bt, .plain, bx⟩)
              · have : Near ws ⟨ab, w :: ar, at_, .plain, ax⟩ ⟨bb, br, bt, .plain, bx⟩ :=
                  ⟨rfl, h2, h3, fun x hx => by
                    rcases List.mem_cons.1 hx with rfl | hx
                    · exact .inr hw
                    · exact h4 x hx, fun x hx => List.mem_cons_of_mem _ (h5 x hx), h6, h7, h8⟩
                simpa [hk, hw, hb] using this
            · have hiff : w ∈ ab ↔ w ∈ bb := ⟨fun h => (h2 w h).resolve_right hw, h3 w⟩
              by_cases hb : w ∈ bb
              · have := hiff.2 hb
                simpa [hk, hw, hb, this] using (⟨rfl, h2, h3, h4, h5, h6, h7, h8⟩ : Near ws ⟨ab, ar, at_, .plain, ax⟩ ⟨bb, br, bt, .plain, bx⟩)
              · have ha : w ∉ ab := fun h => hb (hiff.1 h)
                have : Near ws ⟨ab, w :: ar, at_, .plain, ax⟩ ⟨bb, w :: br, bt, .plain, bx⟩ :=
                  ⟨rfl, h2, h3, fun x hx => by
                    rcases List.mem_cons.1 hx with rfl | hx
                    · exact .inl (List.mem_cons_self ..)
                    · exact (h4 x hx).imp_left (List.mem_cons_of_mem _), fun x hx => by
                    rcases List.mem_cons.1 hx with rfl | hx
                    · exact List.mem_cons_self ..
                    · exact List.mem_cons_of_mem _ (h5 x hx), h6, h7, h8⟩
                simpa [hk, hw, hb, ha] using this
  | key w =>
    simp only [Names.tok]
    split
    · refine ⟨rfl, h2, h3, h4, h5, fun x hx => ?_, fun x hx => ?_, h8⟩
      · rcases List.mem_cons.1 hx with rfl | hx
        · exact .inl (List.mem_cons_self ..)
        · exact (h6 x hx).imp_left (List.mem_cons_of_mem _)
      · rcases List.mem_cons.1 hx with rfl | hx
        · exact List.mem_cons_self ..
        · exact List.mem_cons_of_mem _ (h7 x hx)
    · exact ⟨rfl, h2, h3, h4, h5, h6, h7, h8⟩
  | paren =>
    simp only [Names.tok]
    split
    · exact ⟨rfl, h2, h3, h4, h5, h6, h7, h8⟩
    · exact ⟨rfl, h2, h3, h4, h5, h6, h7, h8⟩
  | assign =>
    refine ⟨rfl, h2, h3, by simp [Names.tok], by simp [Names.tok], fun x hx => ?_, fun x hx => ?_, h8⟩
    · simp only [Names.tok, List.mem_append] at hx ⊢
      rcases hx with hx | hx
      · exact (h4 x hx).imp_left .inl
      · exact (h6 x hx).imp_left .inr
    · simp only [Names.tok, List.mem_append] at hx ⊢
      exact hx.imp (h5 x) (h7 x)
  | line =>
    refine ⟨rfl, fun x hx => ?_, fun x hx => ?_, by simp [Names.tok], by simp [Names.tok], by simp [Names.tok],
      by simp [Names.tok], fun x hx => ?_⟩
    · simp only [Names.tok, List.mem_append] at hx ⊢
      rcases hx with (hx | hx) | hx
      · exact (h6 x hx).imp_left fun h => .inl (.inl h)
      · exact .inl (.inl (.inr hx))
      · exact (h2 x hx).imp_left .inr
    · simp only [Names.tok, List.mem_append] at hx ⊢
      exact hx.imp (.imp_left (h7 x)) (h3 x)
    · simp only [Names.tok, List.mem_append, List.mem_filter] at hx ⊢
      rcases hx with hx | ⟨hx, hb⟩
      · exact (h8 x hx).imp_left .inl
      · rcases h4 x hx with h | h
        · left; right
          refine ⟨h, ?_⟩
          simp only [Bool.not_eq_true', List.contains_eq_mem, decide_eq_false_iff_not] at hb ⊢
          exact fun hm => hb (h3 x hm)
        · exact .inr h

theorem unbound_more {kn ws : List Str} {ps : List Piece} (h : unbound (kn ++ ws) ps = []) :
    ∀ w ∈ unbound kn ps, w ∈ ws := by
  have step : ∀ (ts : List Tok) {a b : Names}, Near ws a b → Near ws (ts.foldl (Names.tok kn) a) (ts.foldl (Names.tok (kn ++ ws)) b) := by
    intro ts
    induction ts with
    | nil => exact fun h => h
    | cons t ts ih => exact fun h => ih (h.tok t)
  have text : ∀ (t : Str) (p : Pos) {a b : Names}, Near ws a b →
      Near ws (State.text kn ⟨p, a⟩ t).names (State.text (kn ++ ws) ⟨p, b⟩ t).names := by
    intro t
    induction t with
    | nil => exact fun _ _ _ h => h
    | cons c t ih => exact fun p a b h => ih _ (step _ h)
  intro w hw
  have := (text (ps.flatMap seen ++ py"\n") first.pos (a := first.names) (b := first.names)
    ⟨rfl, fun _ => .inl, fun _ => id, fun _ => .inl, fun _ => id, fun _ => .inl, fun _ => id, fun _ => .inl⟩).missing w hw
  refine this.resolve_left fun hm => ?_
  have : w ∈ unbound (kn ++ ws) ps := hm
  rw [h] at this; simp at this

end Verif.Spec.Visible

namespace Verif.Utils
open Verif
open Verif.Spec.Visible

/-! ## The definitions in the files -/

theorem splitLines_lines {isBreak : Char → Bool} (hb : isBreak '\n' = true) (s : Str) : ∀ l ∈ splitLines isBreak s, '\n' ∉ l := by
  induction s with
  | nil => simp [splitLines]
  | cons c s ih =>
    simp only [splitLines]
    split
    · intro l hl
      rcases List.mem_cons.1 hl with rfl | hl
      · simp
      · exact ih l hl
    · next hc =>
      have hne : '\n' ≠ c := by rintro rfl; exact hc hb
      split
      · intro l hl
        simp only [List.mem_singleton] at hl
        subst hl
        simpa using hne
      · next p ps he =>
        rw [he] at ih
        intro l hl
        rcases List.mem_cons.1 hl with rfl | hl
        · intro hm
          rcases List.mem_cons.1 hm with h | h
          · exact hne h
          · exact ih p (List.mem_cons_self ..) h
        · exact ih l (List.mem_cons_of_mem _ hl)

theorem join_first (p a : Str) (l : List Str) : p ++ Str.join py"\n" (a :: l) = Str.join py"\n" ((p ++ a) :: l) := by
  cases l with
  | nil => rfl
  | cons b l => simp [Str.join_cons_cons]

theorem join_last (a q : Str) (l : List Str) : Str.join py"\n" (l ++ [a]) ++ q = Str.join py"\n" (l ++ [a ++ q]) := by
  induction l with
  | nil => rfl
  | cons b l ih =>
    simp only [List.cons_append]
    rw [Str.join_cons _ _ _ (by simp), Str.join_cons _ _ _ (by simp), List.append_assoc, List.append_assoc, List.append_assoc, ih]

def line1 : Str := py"############################## 相关utils函数，如下 ##############################"
def line2 : Str := py"############################## 相关utils函数，如上 ##############################"
def line3 : Str := py"############################ PaConvert 自动生成的代码 ###########################"

theorem definitions_comment {l : Str} (h : opens l = none) (ls : List Str) : definitions (l :: ls) = definitions ls := by
  simp [definitions, h]

theorem single_definitions {isBreak isSpace : Char → Bool} (hb : isBreak '\n' = true) {m : CodeMap}
    (hm : ∀ v ∈ m.values, Fresh (Str.splitOn '\n' v)) (existing : Str) :
    definitions (Str.splitOn '\n' (newContent isBreak isSpace m existing)) =
      definitions ((splitLines isBreak existing).take (findIdx isSpace (splitLines isBreak existing))) ++
      m.values.flatMap (fun v => definitions (Str.splitOn '\n' v)) ++
      definitions ((splitLines isBreak existing).drop (findIdx isSpace (splitLines isBreak existing))) := by
  have hl := splitLines_lines hb existing
  have e : newContent isBreak isSpace m existing =
      Str.join py"\n" ((splitLines isBreak existing).take (findIdx isSpace (splitLines isBreak existing))) ++
        insertCode false m ++
        Str.join py"\n" ((splitLines isBreak existing).drop (findIdx isSpace (splitLines isBreak existing))) := rfl
  rw [e]
  generalize findIdx isSpace (splitLines isBreak existing) = i
  generalize splitLines isBreak existing = lines at hl
  have h1 : ∀ l ∈ lines.take i, '\n' ∉ l := fun l h => hl l (List.mem_of_mem_take h)
  have h2 : ∀ l ∈ lines.drop i, '\n' ∉ l := fun l h => hl l (List.mem_of_mem_drop h)
  generalize lines.take i = head at h1
  generalize lines.drop i = rest at h2
  have : Str.join py"\n" head ++ insertCode false m ++ Str.join py"\n" rest =
      Str.join py"\n" ((Str.join py"\n" head ++ startContent) :: (m.values ++ [endContent ++ Str.join py"\n" rest])) := by
    unfold insertCode
    simp only [Bool.false_eq_true, if_false, List.cons_append, List.nil_append]
    rw [join_first, ← List.cons_append, join_last, List.cons_append]
  rw [this, splitOn_join_nl _ (by simp), List.flatMap_cons, List.flatMap_append, List.flatMap_cons, List.flatMap_nil,
    List.append_nil]
  have s1 : startContent = '\n' :: line1 := rfl
  have s2 : endContent ++ Str.join py"\n" rest = line2 ++ '\n' :: ([] ++ '\n' :: Str.join py"\n" rest) := by
    have : endContent = line2 ++ py"\n\n" := by decide
    rw [this]; simp
  have l1 : Str.splitOn '\n' line1 = [line1] := by decide
  have l2 : Str.splitOn '\n' line2 = [line2] := by decide
  rw [s1, s2, splitOn_append_nl, splitOn_append_nl, splitOn_append_nl, l1, l2]
  have f2 : Fresh ([line2] ++ (Str.splitOn '\n' [] ++ Str.splitOn '\n' (Str.join py"\n" rest))) := .of (by decide)
  obtain ⟨b1, b2⟩ := definitions_blocks f2 hm
  have f1 : ∀ ls, Fresh ([line1] ++ ls) := fun ls => .of (by decide)
  rw [List.append_assoc, definitions_append (f1 _), List.cons_append, List.nil_append, definitions_comment (by decide), b1,
    definitions_join h1, List.cons_append, List.nil_append, definitions_comment (by decide)]
  show _ ++ (_ ++ definitions ([] :: Str.splitOn '\n' (Str.join py"\n" rest))) = _
  rw [definitions_blank, definitions_join h2, List.append_assoc]

theorem dir_definitions {m : CodeMap} (hm : ∀ v ∈ m.values, Fresh (Str.splitOn '\n' v)) :
    definitions (Str.splitOn '\n' (insertCode true m)) =
      (py"paddle", [py"import paddle"]) :: m.values.flatMap (fun v => definitions (Str.splitOn '\n' v)) := by
  rw [(C61_block_lines m).2]
  have f2 : Fresh [line2, [], []] := .of (by decide)
  obtain ⟨b1, b2⟩ := definitions_blocks f2 hm
  have f1 : ∀ ls, Fresh ([line1, line3] ++ ls) := fun ls => .of (by decide)
  have e : ∀ x, ([[], py"import paddle", [], [], line1, line3] : List Str) ++ x =
      [[], py"import paddle", [], []] ++ ([line1, line3] ++ x) := fun _ => rfl
  show definitions (([[], py"import paddle", [], [], line1, line3] ++ m.values.flatMap (Str.splitOn '\n')) ++ [line2, [], []]) = _
  have e' : definitions ([line1, line3] ++ (m.values.flatMap (Str.splitOn '\n') ++ [line2, [], []])) =
      definitions (m.values.flatMap (Str.splitOn '\n') ++ [line2, [], []]) := by
    rw [List.cons_append, List.cons_append, List.nil_append, definitions_comment (by decide), definitions_comment (by decide)]
  rw [List.append_assoc, e, definitions_append (f1 _), e', b1]
  have : definitions [line2, [], []] = [] := by decide
  rw [this, List.append_nil]
  have : definitions [[], py"import paddle", [], []] = [(py"paddle", [py"import paddle"])] := by decide
  rw [this]; rfl

end Verif.Utils

namespace Verif.HelperText
open Verif
open Verif.Spec.Visible

/-! ## The helpers -/

/-- All of them. -/
def allTexts : List (List Str) :=
  texts.values ++ [py"roi_pool", py"roi_align", py"psroi_pool"].map boxesConvertText

set_option maxRecDepth 100000 in
theorem boxes_table : (Data.apiTable.all fun r => !(Nat.beq r.matcher (Data.encode py"BoxesConvertMatcher")) ||
    [py"roi_pool", py"roi_align", py"psroi_pool"].contains (((r.cfg.paddleApi.getD []).reverse.takeWhile (· != '.')).reverse)) = true := by
  decide +kernel

set_option maxRecDepth 100000 in
/-- The lines of the texts, and that two helpers with a common name define it in the same way. -/
theorem texts_table : (allTexts.all fun t =>
    decide (Str.splitOn '\n' (Utils.rstripNl (code t)) = [] :: t) &&
    (match t with
      | l :: _ => !continues l
      | [] => false) &&
    allTexts.all fun u => (defined u).all fun n => decide (lookup t n = none) || decide (lookup t n = lookup u n)) = true := by
  decide +kernel

theorem mem_allTexts {r : Data.Raw} (hr : r ∈ Data.apiTable) {t : List Str} (h : helper r.class r.cfg = some t) :
    t ∈ allTexts := by
  unfold helper at h
  split at h
  · next hc =>
    simp only [Option.some.injEq] at h
    subst h
    have := List.all_eq_true.1 boxes_table r hr
    have hm : r.matcher = Data.encode py"BoxesConvertMatcher" :=
      (Data.decode_eq_iff (by decide +kernel)).1 (eq_of_beq hc)
    simp only [hm, Nat.beq_refl, Bool.not_true, Bool.false_or, List.contains_iff_mem] at this
    exact List.mem_append_right _ (List.mem_map_of_mem this)
  · exact List.mem_append_left _ (List.mem_map_of_mem (Dict.mem_of_get? h))

theorem text_lines {t : List Str} (h : t ∈ allTexts) : Str.splitOn '\n' (Utils.rstripNl (code t)) = [] :: t ∧ Fresh ([] :: t) := by
  have := List.all_eq_true.1 texts_table t h
  simp only [Bool.and_eq_true, decide_eq_true_eq] at this
  refine ⟨this.1.1, .blank ?_⟩
  have h2 := this.1.2
  split at h2
  · exact .of (by simpa using h2)
  · simp at h2

theorem text_agree {t u : List Str} (h : t ∈ allTexts) (hu : u ∈ allTexts) {n : Str} (hn : n ∈ defined u) :
    lookup t n = none ∨ lookup t n = lookup u n := by
  have := List.all_eq_true.1 texts_table t h
  simp only [Bool.and_eq_true, List.all_eq_true] at this
  simpa only [Bool.or_eq_true, decide_eq_true_eq] using this.2 u hu n hn

end Verif.HelperText
