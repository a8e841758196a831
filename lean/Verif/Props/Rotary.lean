import Verif.Model.Rotary
import Verif.Spec.Rotary
import Verif.Props.Negation
import Mathlib.Tactic.Ring

/-! # C95: rotary embeddings -/

namespace Verif.Rotary
open Verif.Spec.Rotary

variable {R : Type} [CommRing R]

omit [CommRing R] in
theorem rot_length {c x : List R} (h : 2 * c.length ≤ x.length) : (x.take (c ++ c).length).length = 2 * c.length := by
  rw [List.length_take, List.length_append]; omega

theorem row_rotated {c s x : List R} (hs : s.length = c.length) (h : 2 * c.length ≤ x.length) : Rotated c s x (row c s x) := by
  have hl : (c ++ c).length = 2 * c.length := by rw [List.length_append]; omega
  have hsl : (s ++ s).length = 2 * c.length := by rw [List.length_append]; omega
  have hr : (rotateHalf (x.take (c ++ c).length)).length = 2 * c.length := by
    rw [rotateHalf, List.length_append, List.length_map, List.length_drop, List.length_take (l := x.take _), rot_length h]; omega
  have hh : (x.take (c ++ c).length).length / 2 = c.length := by rw [rot_length h]; omega
  have hz : (List.zipWith (· + ·) (List.zipWith (· * ·) (x.take (c ++ c).length) (c ++ c))
      (List.zipWith (· * ·) (rotateHalf (x.take (c ++ c).length)) (s ++ s))).length = 2 * c.length := by
    rw [List.length_zipWith, List.length_zipWith, List.length_zipWith, rot_length h, hr, hl, hsl]; omega
  have ent : ∀ (i : Nat) (u a v b : R), i < 2 * c.length → x[i]? = some u → (c ++ c)[i]? = some a →
      (rotateHalf (x.take (c ++ c).length))[i]? = some v → (s ++ s)[i]? = some b → (row c s x)[i]? = some (u * a + v * b) := by
    intro i u a v b hi hu ha hv hb
    rw [row, List.getElem?_append_left (by rw [hz]; exact hi), List.getElem?_zipWith, List.getElem?_zipWith, List.getElem?_zipWith,
      List.getElem?_take_of_lt (by rw [hl]; exact hi), hu, ha, hv, hb]
  have lt_of : ∀ {l : List R} {j : Nat} {a : R}, l[j]? = some a → j < l.length := fun h => (List.getElem?_eq_some_iff.1 h).1
  refine ⟨?_, ?_, ?_, ?_⟩
  · rw [row, List.length_append, hz, List.length_drop, hl]; omega
  · intro j a b u v ha hb hu hv
    have hj := lt_of ha
    have h1 : (rotateHalf (x.take (c ++ c).length))[j]? = some (-v) := by
      rw [rotateHalf, hh, List.getElem?_append_left (by rw [List.length_map, List.length_drop, rot_length h]; omega),
        List.getElem?_map, List.getElem?_drop, List.getElem?_take_of_lt (by rw [hl]; omega), Nat.add_comm, hv]
      rfl
    rw [ent j u a (-v) b (by omega) hu (by rw [List.getElem?_append_left hj, ha]) h1
      (by rw [List.getElem?_append_left (lt_of hb), hb])]
    congr 1; ring
  · intro j a b u v ha hb hu hv
    have hj := lt_of ha
    have h1 : (rotateHalf (x.take (c ++ c).length))[j + c.length]? = some u := by
      have : ((x.take (c ++ c).length).drop c.length |>.map (-·)).length = c.length := by
        rw [List.length_map, List.length_drop, rot_length h]; omega
      rw [rotateHalf, hh, List.getElem?_append_right (by rw [this]; omega), this, Nat.add_sub_cancel,
        List.getElem?_take_of_lt hj, List.getElem?_take_of_lt (by rw [hl]; omega), hu]
    rw [ent (j + c.length) v a u b (by omega) hv
      (by rw [List.getElem?_append_right (by omega), Nat.add_sub_cancel, ha]) h1
      (by rw [← hs, List.getElem?_append_right (by omega), Nat.add_sub_cancel, hb])]
    congr 1; ring
  · intro j hj
    rw [row, List.getElem?_append_right (by rw [hz]; exact hj), hz, List.getElem?_drop, hl]
    congr 1; omega

theorem meet_same {α β : Type} {xs : List α} {cs : List β} (h : xs.length = cs.length) : meet xs cs = some (xs.zip cs) := by
  unfold meet
  exact if_pos h

/-- **C95.** If there are as many rows of `cos` and `sin` as positions, the helper computes the rotary embedding. -/
theorem C95_rotary_partial {x : List (List (List (List R)))} {cs : List (List R × List R)} (hx : ∀ b ∈ x, b.length = cs.length)
    (hc : ∀ p ∈ cs, p.2.length = p.1.length ∧ ∀ b ∈ x, ∀ heads ∈ b, ∀ r ∈ heads, 2 * p.1.length ≤ r.length) :
    ∃ y, apply x cs = some y ∧ Embedded x cs y := by
  induction x with
  | nil => exact ⟨[], rfl, .nil⟩
  | cons b x ih =>
    obtain ⟨y, h1, h2⟩ := ih (fun b' hb => hx b' (List.mem_cons_of_mem _ hb))
      (fun p hp => ⟨(hc p hp).1, fun b' hb => (hc p hp).2 b' (List.mem_cons_of_mem _ hb)⟩)
    have hb := hx b (List.mem_cons_self ..)
    refine ⟨(b.zip cs).map (fun p => p.1.map (row p.2.1 p.2.2)) :: y, ?_, .cons ⟨?_, ?_⟩ h2⟩
    · rw [apply, List.mapM_cons]
      rw [apply] at h1
      rw [h1, meet_same hb]
      rfl
    · rw [List.length_map, List.length_zip, hb, min_self]
    · intro i heads c hi hcs
      refine ⟨heads.map (row c.1 c.2), ?_, ?_⟩
      · rw [List.getElem?_map, show (b.zip cs)[i]? = some (heads, c) from List.getElem?_zip_eq_some.2 ⟨hi, hcs⟩]; rfl
      · rw [List.forall₂_map_right_iff, List.forall₂_same]
        intro r hr
        have hm := hc c (List.mem_of_getElem? hcs)
        exact row_rotated hm.1 (hm.2 b (List.mem_cons_self ..) heads (List.mem_of_getElem? hi) r hr)

/-- **C95 fails** for one position and more rows of `cos`, as in generating one token after the other: the result has as many
positions as there are rows. -/
theorem C95_single_negative {heads : List (List R)} {cs : List (List R × List R)} (h : 2 ≤ cs.length) :
    ∃ y, apply [[heads]] cs = some [y] ∧ y.length = cs.length ∧ ¬ Embedded [[heads]] cs [y] := by
  have hm : meet [heads] cs = some (cs.map (heads, ·)) := by
    unfold meet
    rw [if_neg (by rw [List.length_singleton]; omega)]
    match cs, h with
    | a :: b :: l, _ => rfl
  refine ⟨cs.map fun p => heads.map (row p.1 p.2), ?_, by rw [List.length_map], ?_⟩
  · simp [apply, hm]
  · intro he
    have := (List.forall₂_cons.1 he).1.1
    rw [List.length_map, List.length_singleton] at this
    omega

/-- **C95 fails** for more than one position and more rows of `cos`: the code raises an exception, `flash_attn` uses the first
rows. -/
theorem C95_longer_negative {b : List (List (List R))} {x : List (List (List (List R)))} {cs : List (List R × List R)}
    (h1 : 2 ≤ b.length) (h2 : b.length < cs.length) : apply (b :: x) cs = none := by
  have hm : meet b cs = none := by
    unfold meet
    rw [if_neg (by omega)]
    match b, cs, h1, h2 with
    | _ :: _ :: _, _ :: _ :: _ :: _, _, _ => rfl
  rw [apply, List.mapM_cons, hm]
  rfl

/-- A quarter turn of the pair of the numbers 1 and 2. -/
example : apply [[[[(1 : ℤ), 2, 5]]]] [([0], [1])] = some [[[[-2, 1, 5]]]] := by decide

end Verif.Rotary

namespace Verif.Template
open Verif Verif.Spec

set_option maxRecDepth 100000 in
/-- **C95 fails** for the other parameters of `apply_rotary_emb_func`: they are given to a function that does not have them. -/
theorem C95_parameters_negative : ∃ r ∈ Data.apiTable, r.name = py"flash_attn.layers.rotary.apply_rotary_emb_func" ∧
    r.class = py"FAApplyRotaryEmbFuncMatcher" ∧ ∃ c ps,
    c.args = [(py"x", py"x"), (py"cos", py"c"), (py"sin", py"s"), (py"interleaved", py"(False)")] ∧ Valid r c ∧
    Converts r c (.code ps) ∧ Spec.print c.args c.recv c.fresh ps =
      py"\napply_rotary_position_embeddings(x=x, cos=c, sin=s, interleaved=(False))\n" := becomesBy_sound (by decide +kernel)

end Verif.Template
