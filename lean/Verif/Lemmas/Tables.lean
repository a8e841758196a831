import Verif.Model.Tables

/-!
# Going through the shipped tables

The checks below run over the whole tables, in the kernel. They are made on the numbers that stand for the texts;
`decode_inj` carries them over to the texts.
-/

namespace Verif.Data
open Verif Verif.Dispatch Verif.Matcher

/-! ## Texts and numbers -/

theorem toNat_ofNat_digit (n : Nat) : (Char.ofNat (n % 256)).toNat = n % 256 := by
  have h : (n % 256).isValidChar := by
    refine Or.inl ?_; have := Nat.mod_lt n (y := 256) (by omega); omega
  simp [Char.ofNat, h, Char.toNat, Char.ofNatAux]

theorem encode_decodeGo (fuel n : Nat) (acc : Str) (h : n < 256 ^ fuel) (m : Nat) :
    (decodeGo fuel n acc).foldl (fun n c => 256 * n + c.toNat) m
      = acc.foldl (fun n c => 256 * n + c.toNat) ((decodeGo fuel n []).foldl (fun n c => 256 * n + c.toNat) m) := by
  induction fuel generalizing n acc m with
  | zero => rfl
  | succ fuel ih =>
    unfold decodeGo
    split
    · rfl
    · have hn : n / 256 < 256 ^ fuel := by
        rw [Nat.div_lt_iff_lt_mul (by omega)]; rw [Nat.pow_succ] at h; exact h
      rw [ih _ _ hn, ih _ [_] hn]; rfl

theorem encode_decodeGo_nil (fuel n : Nat) (h : n < 256 ^ fuel) :
    (decodeGo fuel n []).foldl (fun n c => 256 * n + c.toNat) 0 = n := by
  induction fuel generalizing n with
  | zero => simp only [Nat.pow_zero] at h; simp [decodeGo]; omega
  | succ fuel ih =>
    unfold decodeGo
    split
    · simp [*]
    · have hn : n / 256 < 256 ^ fuel := by
        rw [Nat.div_lt_iff_lt_mul (by omega)]; rw [Nat.pow_succ] at h; exact h
      rw [encode_decodeGo _ _ _ hn, ih _ hn]
      simp only [List.foldl_cons, List.foldl_nil, toNat_ofNat_digit]
      omega

theorem encode_decode (n : Nat) : encode (decode n) = n := by
  refine encode_decodeGo_nil _ _ ?_
  calc n < 2 ^ n := Nat.lt_two_pow_self
    _ ≤ 256 ^ n := Nat.pow_le_pow_left (by omega) _

theorem decode_inj {a b : Nat} (h : decode a = decode b) : a = b := by
  rw [← encode_decode a, ← encode_decode b, h]

/-- A text is that of a number exactly when its number is this one. -/
theorem decode_eq_iff {n : Nat} {s : Str} (hs : decode (encode s) = s) : decode n = s ↔ n = encode s := by
  rw [← hs]
  exact ⟨fun h => by rw [decode_inj h, encode_decode], fun h => by rw [h, encode_decode]⟩

example : decode 0x746f7263682e74 = py"torch.t" := by decide

/-- In an ascending list of numbers no number repeats. -/
def ascending : List Nat → Bool
  | a :: b :: l => decide (a < b) && ascending (b :: l)
  | _ => true

theorem ascending_nodup : ∀ l : List Nat, ascending l = true → l.Pairwise (· < ·)
  | [], _ => by simp
  | [a], _ => by simp
  | a :: b :: l, h => by
    simp only [ascending, Bool.and_eq_true, decide_eq_true_eq] at h
    have ih := ascending_nodup (b :: l) h.2
    refine List.pairwise_cons.2 ⟨?_, ih⟩
    intro x hx
    rcases List.mem_cons.1 hx with e | e
    · omega
    · have := (List.pairwise_cons.1 ih).1 x e; omega

theorem keys_nodup {α : Type} (l : List α) (f : α → Nat) (h : ascending (l.map f) = true) :
    (l.map fun a => decode (f a)).Nodup := by
  have := ascending_nodup _ h
  rw [List.pairwise_map] at this
  rw [List.Nodup, List.pairwise_map]
  refine this.imp ?_
  intro a b hlt e
  have := decode_inj e; omega

/-- Two ascending lists have no number in common. -/
def apart : Nat → List Nat → List Nat → Bool
  | _, [], _ => true
  | _, _, [] => true
  | 0, _, _ => false
  | fuel + 1, a :: as, b :: bs =>
    if a < b then apart fuel as (b :: bs) else if b < a then apart fuel (a :: as) bs else false

theorem apart_disjoint (fuel : Nat) (l m : List Nat) (h : apart fuel l m = true) (hl : l.Pairwise (· < ·))
    (hm : m.Pairwise (· < ·)) : ∀ x ∈ l, x ∉ m := by
  induction fuel generalizing l m with
  | zero =>
    cases l with
    | nil => simp
    | cons a l => cases m with
      | nil => simp
      | cons b m => simp [apart] at h
  | succ fuel ih =>
    cases l with
    | nil => simp
    | cons a l => cases m with
      | nil => simp
      | cons b m =>
        simp only [apart] at h
        rw [List.pairwise_cons] at hl hm
        split at h
        · next hab =>
          have := ih _ _ h hl.2 (List.pairwise_cons.2 hm)
          intro x hx
          rcases List.mem_cons.1 hx with e | e
          · subst e
            intro hx
            rcases List.mem_cons.1 hx with e | e
            · omega
            · have := hm.1 _ e; omega
          · exact this x e
        · split at h
          · next hba =>
            have := ih _ _ h (List.pairwise_cons.2 hl) hm.2
            intro x hx hx2
            rcases List.mem_cons.1 hx2 with e | e
            · subst e
              rcases List.mem_cons.1 hx with e | e
              · omega
              · have := hl.1 _ e; omega
            · exact this x hx e
          · simp at h

/-! ## Facts checked by going through the tables -/

set_option maxRecDepth 100000

theorem api_sorted : ascending (apiTable.map (·.key)) = true := by decide +kernel
theorem attr_sorted : ascending (attrTable.map (·.key)) = true := by decide +kernel
theorem alias_sorted : ascending (aliasTable.map (·.1)) = true := by decide +kernel

def dataLoader : Str := py"torch.utils.data.dataloader.DataLoader"

theorem alias_values_check : aliasTable.all (fun a => aliasTable.all fun b => !(a.2.beq b.1)) = true := by decide +kernel
theorem alias_api_check :
    apart 3000 ((aliasTable.map (·.1)).filter fun a => !(a.beq (encode dataLoader))) (apiTable.map (·.key)) = true := by
  decide +kernel
theorem alias_attr_check : apart 3000 (aliasTable.map (·.1)) (attrTable.map (·.key)) = true := by decide +kernel
theorem both_check : apart 3000 (attrTable.map (·.key)) (apiTable.map (·.key)) = true := by decide +kernel

theorem dataLoader_code : decode (encode dataLoader) = dataLoader := by decide

/-! ### The same facts about texts -/

theorem api_keys : shipped.api.keys = apiTable.map fun r => decode r.key := by
  simp [shipped, Dict.keys, Function.comp_def, Raw.name]
theorem attr_keys : shipped.attr.keys = attrTable.map fun r => decode r.key := by
  simp [shipped, Dict.keys, Function.comp_def, Raw.name]
theorem alias_keys : shipped.aliases.keys = aliasTable.map fun a => decode a.1 := by
  simp [shipped, Dict.keys, Function.comp_def]

theorem api_wf : shipped.api.WF := by
  rw [Dict.WF, api_keys]; exact keys_nodup apiTable (·.key) api_sorted
theorem attr_wf : shipped.attr.WF := by
  rw [Dict.WF, attr_keys]; exact keys_nodup attrTable (·.key) attr_sorted
theorem alias_wf : shipped.aliases.WF := by
  rw [Dict.WF, alias_keys]; exact keys_nodup aliasTable (·.1) alias_sorted

theorem mem_map_decode {α : Type} {l : List α} {f : α → Nat} {n : Nat} :
    decode n ∈ l.map (fun a => decode (f a)) ↔ n ∈ l.map f := by
  simp only [List.mem_map]
  exact ⟨fun ⟨a, h1, h2⟩ => ⟨a, h1, decode_inj h2⟩, fun ⟨a, h1, h2⟩ => ⟨a, h1, by rw [h2]⟩⟩

theorem alias_not_api {k : Str} (h : k ∈ shipped.aliases.keys) (hd : k ≠ dataLoader) : k ∉ shipped.api.keys := by
  rw [alias_keys, List.mem_map] at h
  obtain ⟨a, ha, rfl⟩ := h
  rw [api_keys, mem_map_decode]
  refine apart_disjoint _ _ _ alias_api_check ((ascending_nodup _ alias_sorted).filter _)
    (ascending_nodup _ api_sorted) a.1 ?_
  simp only [List.mem_filter, List.mem_map]
  refine ⟨⟨a, ha, rfl⟩, ?_⟩
  cases hb : a.1.beq (encode dataLoader) with
  | false => rfl
  | true => rw [Nat.eq_of_beq_eq_true hb, dataLoader_code] at hd; exact absurd rfl hd

theorem alias_not_attr {k : Str} (h : k ∈ shipped.aliases.keys) : k ∉ shipped.attr.keys := by
  rw [alias_keys, List.mem_map] at h
  obtain ⟨a, ha, rfl⟩ := h
  rw [attr_keys, mem_map_decode]
  exact apart_disjoint _ _ _ alias_attr_check (ascending_nodup _ alias_sorted) (ascending_nodup _ attr_sorted) a.1
    (List.mem_map.2 ⟨a, ha, rfl⟩)

theorem attr_not_api {k : Str} (h : k ∈ shipped.attr.keys) : k ∉ shipped.api.keys := by
  rw [attr_keys, List.mem_map] at h
  obtain ⟨a, ha, rfl⟩ := h
  rw [api_keys, mem_map_decode]
  exact apart_disjoint _ _ _ both_check (ascending_nodup _ attr_sorted) (ascending_nodup _ api_sorted) a.key
    (List.mem_map.2 ⟨a, ha, rfl⟩)

theorem alias_value_not_alias {k v : Str} (h : (k, v) ∈ shipped.aliases) : v ∉ shipped.aliases.keys := by
  have h' : (k, v) ∈ aliasTable.map fun a => (decode a.1, decode a.2) := h
  rw [List.mem_map] at h'
  obtain ⟨a, ha, e⟩ := h'
  simp only [Prod.mk.injEq] at e
  rw [← e.2, alias_keys, mem_map_decode, List.mem_map]
  rintro ⟨b, hb, e2⟩
  have := List.all_eq_true.1 (List.all_eq_true.1 alias_values_check a ha) b hb
  rw [e2] at this
  simp [Nat.beq_refl] at this

theorem alias_einops_check : aliasTable.all (fun a => !matchDots py"einops.layers.torch" (decode a.2)) = true := by
  decide +kernel

theorem packages_check : torchPackages.keys.all (fun p => (p.headD ' ') != 'e' && p != []) = true := by decide +kernel

/-- All entries of the two tables. -/
def entries : List Raw := apiTable ++ attrTable

theorem all_entries {P : Raw → Bool} (h1 : apiTable.all P = true) (h2 : attrTable.all P = true) :
    ∀ r ∈ entries, P r = true := by
  intro r hr
  rcases List.mem_append.1 hr with h | h
  · exact List.all_eq_true.1 h1 r h
  · exact List.all_eq_true.1 h2 r h

def changePrefix : Str := py"ChangePrefixMatcher"
def changeApi : Str := py"ChangeAPIMatcher"
def generic : Str := py"GenericMatcher"

theorem class_iff (s : Str) (hs : decode (encode s) = s) (r : Raw) : r.class = s ↔ r.matcher.beq (encode s) = true := by
  rw [Raw.class, decode_eq_iff hs]
  exact ⟨fun h => by rw [h]; exact Nat.beq_refl _, fun h => Nat.eq_of_beq_eq_true h⟩

theorem name_iff (s : Str) (hs : decode (encode s) = s) (r : Raw) : r.name = s ↔ r.key.beq (encode s) = true := by
  rw [Raw.name, decode_eq_iff hs]
  exact ⟨fun h => by rw [h]; exact Nat.beq_refl _, fun h => Nat.eq_of_beq_eq_true h⟩

/-- The check of one entry. -/
def coherent (r : Raw) : Bool :=
  (if r.matcher.beq (encode changePrefix) then r.unsupport.isEmpty && r.change.isEmpty && r.defaults.isEmpty
   else if r.matcher.beq (encode changeApi) then
     !(r.paddle.beq 0) && r.unsupport.isEmpty && r.change.isEmpty && r.defaults.isEmpty
   else true) &&
  (r.matcher.beq 0 || r.matcher.beq (encode changePrefix) || matcherClasses.any (fun c => c.beq r.matcher)) &&
  decide ((r.args.filter fun a => a.beq 42).length ≤ 1)

theorem coherent_api : apiTable.all coherent = true := by decide +kernel
theorem coherent_attr : attrTable.all coherent = true := by decide +kernel
theorem changePrefix_class : matcherClasses.any (fun c => c.beq (encode changePrefix)) = true := by decide +kernel

theorem coherent_entry : ∀ r ∈ entries, coherent r = true := all_entries coherent_api coherent_attr

/-! ### Generic entries -/

def backward : Str := py"torch.autograd.Function.backward"

def hasTarget (r : Raw) : Bool := !(r.matcher.beq (encode generic)) || (r.key.beq (encode backward) || !(r.paddle.beq 0))

theorem generic_api : apiTable.all hasTarget = true := by decide +kernel
theorem generic_attr : attrTable.all hasTarget = true := by decide +kernel
theorem generic_missing : apiTable.any (fun r => r.matcher.beq (encode generic) && r.paddle.beq 0 && r.key.beq (encode backward))
    = true := by decide +kernel

/-- The two entries whose parameters are all keyword-only. -/
def cov : Str := py"torch.Tensor.cov"
def schedule : Str := py"torch.profiler.schedule"

def starFirst (r : Raw) : Bool :=
  (match r.args with | [] => true | a :: _ => !(a.beq 42)) || (r.key.beq (encode cov) || r.key.beq (encode schedule))

theorem star_api : apiTable.all starFirst = true := by decide +kernel
theorem star_attr : attrTable.all starFirst = true := by decide +kernel

/-! ### Prefix-only entries -/

def int32 : Str := py"torch.torch.int32"
def tokenizer : Str := py"transformers.PreTrainedTokenizer"

def prefixShape (r : Raw) : Bool :=
  !(r.matcher.beq (encode changePrefix)) || (r.key.beq (encode int32) || r.key.beq (encode tokenizer) ||
    (Str.startsWith r.name py"torch." && !(Str.contains (r.name.drop 5) py"torch")))

theorem prefix_api : apiTable.all prefixShape = true := by decide +kernel
theorem prefix_attr : attrTable.all prefixShape = true := by decide +kernel
theorem int32_there : apiTable.any (fun r => r.matcher.beq (encode changePrefix) && r.key.beq (encode int32)) = true := by
  decide +kernel
theorem tokenizer_there :
    apiTable.any (fun r => r.matcher.beq (encode changePrefix) && r.key.beq (encode tokenizer)) = true := by
  decide +kernel

end Verif.Data
