import Verif.Lemmas.Assigned
import Verif.Model.HelperText
import Verif.Spec.Visible

/-! The check of C89 and C91. -/

namespace Verif.Spec.Visible
open Verif
open Verif.Template (Val kwsVal)

/-! ## The reader on `k=v, ...` -/

def calm : Pos := ⟨none, [], false, 0⟩

theorem read_append (kn : List Str) (s : State) (t u : Str) : s.text kn (t ++ u) = (s.text kn t).text kn u := by
  simp [State.text]

theorem read_cons (kn : List Str) (s : State) (c : Char) (u : Str) : s.text kn (c :: u) = (s.char kn c).text kn u := rfl

theorem read_nil (kn : List Str) (s : State) : s.text kn [] = s := rfl

theorem read_char {kn : List Str} {s : State} (hq : s.pos.quote = none) {c : Char} (hc : isWord c = true) :
    s.char kn c = ⟨⟨none, c :: s.pos.word, s.pos.dot, 0⟩, s.names⟩ := by
  obtain ⟨⟨q, w, d, e⟩, n⟩ := s
  simp only at hq; subst hq
  simp [State.char, next, hc]

theorem read_word {kn : List Str} (k : Str) (hk : k.all isWord = true) (hne : k ≠ []) {s : State} (hq : s.pos.quote = none) :
    s.text kn k = ⟨⟨none, k.reverse ++ s.pos.word, s.pos.dot, 0⟩, s.names⟩ := by
  induction k generalizing s with
  | nil => exact absurd rfl hne
  | cons c k ih =>
    simp only [List.all_cons, Bool.and_eq_true] at hk
    rw [read_cons, read_char hq hk.1]
    by_cases h : k = []
    · subst h; simp [read_nil]
    · rw [ih hk.2 h rfl]; simp

theorem read_key {kn : List Str} {k : Str} (hk : k.all isWord = true) (hne : k ≠ []) {e : Nat} {n : Names}
    (hm : n.mode = .plain) : State.text kn ⟨⟨none, [], false, e⟩, n⟩ (k ++ py"=") = ⟨calm, n⟩ := by
  rw [read_append, read_word k hk hne rfl]
  have hw : isWord '=' = false := by decide
  simp only [read_cons, read_nil, State.char, next, hw, List.append_nil]
  have : ended ⟨none, k.reverse, false, 0⟩ '=' = [] ∨ ended ⟨none, k.reverse, false, 0⟩ '=' = [.key k] := by
    unfold ended
    split
    · exact .inl rfl
    · split
      · exact .inl rfl
      · right; simp
  rcases this with h | h <;> simp [h, calm, Names.tok, hm]

theorem read_comma {kn : List Str} {s : State} (hq : s.pos.quote = none) : s.char kn ',' = s.char kn ')' := by
  obtain ⟨⟨q, w, d, e⟩, n⟩ := s
  simp only at hq; subst hq
  have h1 : isWord ',' = false := by decide
  have h2 : isWord ')' = false := by decide
  have h3 : ended ⟨none, w, d, e⟩ ',' = ended ⟨none, w, d, e⟩ ')' := by
    unfold ended; simp
  simp [State.char, next, h1, h2, h3]

/-- The value has no names that are not bound, and it can be followed by a comma. -/
def quiet (kn : List Str) (n : Names) (v : Val) : Bool :=
  let r := State.text kn ⟨calm, n⟩ (v.flatMap seen)
  decide (r.pos.quote = none) && decide (r.char kn ')' = ⟨calm, n⟩)

theorem read_close {kn : List Str} {e : Nat} {n : Names} :
    State.char kn ⟨⟨none, [], false, e⟩, n⟩ ')' = ⟨calm, n⟩ := by
  have h2 : isWord ')' = false := by decide
  simp [State.char, next, h2, ended, calm]

theorem read_kws {kn : List Str} {n : Names} (hm : n.mode = .plain) : ∀ (d : Dict Str Val) (e : Nat),
    (∀ kv ∈ d, kv.1.all isWord = true ∧ kv.1 ≠ [] ∧ quiet kn n kv.2 = true) →
    (State.text kn ⟨⟨none, [], false, e⟩, n⟩ ((kwsVal d).flatMap seen)).char kn ')' = ⟨calm, n⟩
  | [], e, _ => by simpa [kwsVal, read_nil] using read_close
  | [(k, v)], e, h => by
    obtain ⟨h1, h2, h3⟩ := h (k, v) (by simp)
    simp only [quiet, Bool.and_eq_true, decide_eq_true_eq] at h3
    simp only [kwsVal, List.flatMap_cons, seen]
    rw [read_append, read_key h1 h2 hm]
    exact h3.2
  | (k, v) :: x :: d, e, h => by
    obtain ⟨h1, h2, h3⟩ := h (k, v) (by simp)
    simp only [quiet, Bool.and_eq_true, decide_eq_true_eq] at h3
    have ih := read_kws hm (x :: d) 1 fun kv hkv => h kv (List.mem_cons_of_mem _ hkv)
    have hs : ∀ d, (State.text kn ⟨⟨none, [], false, e⟩, n⟩
        ((.code (k ++ py"=") :: (v ++ .code py", " :: d) : List Piece).flatMap seen)) =
        State.text kn ⟨⟨none, [], false, 1⟩, n⟩ (d.flatMap seen) := by
      intro d
      simp only [List.flatMap_cons, List.flatMap_append, seen]
      rw [read_append, read_key h1 h2 hm, read_append, read_append]
      congr 1
      rw [read_cons, read_comma h3.1, h3.2, read_cons, read_nil]
      have h2 : isWord ' ' = false := by decide
      simp [State.char, next, h2, ended, calm]
    show (State.text kn _ ((.code (k ++ py"=") :: (v ++ .code py", " :: kwsVal (x :: d)) : List Piece).flatMap seen)).char kn ')' = _
    rw [hs]
    exact ih

end Verif.Spec.Visible

/-! ## The check -/

namespace Verif.Template
open Verif
open Verif.Spec
open Verif.Spec.Visible
open Verif.Matcher (Cfg)

def scanQ (kn : List Str) (api : Val) (a : A) (s : State) : List Q → Option State
  | [] => some s
  | .kws ex :: .lit (')' :: t) :: qs =>
    if s.pos.quote.isNone && s.pos.word.isEmpty && !s.pos.dot && s.names.mode == .plain &&
        a.ents.all (fun e => ex.contains e.key || e.key.all isWord && !e.key.isEmpty && quiet kn s.names e.val) then
      scanQ kn api a (State.text kn ⟨calm, s.names⟩ t) qs
    else none
  | q :: qs =>
    match q.val api a with
    | some v => scanQ kn api a (s.text kn (v.flatMap seen)) qs
    | none => none

/-- All names in the code are known or bound. -/
def namesFin (kn : List Str) (api : Val) (a : A) (qs : List Q) : Bool :=
  match scanQ kn api a first qs with
  | some s => (s.text kn py"\n").names.missing.isEmpty
  | none => false

theorem scanQ_sound {kn : List Str} {c : Call} {a : A} {s : St} (hrel : Rel c a s) (qs : List Q) (st : State) {st' : State}
    (h : scanQ kn c.api a st qs = some st') {v : Val} (hv : evalAll c s qs = some v) :
    st.text kn (v.flatMap seen) = st' := by
  fun_induction scanQ kn c.api a st qs generalizing v with
  | case1 s =>
    simp only [Option.some.injEq] at h
    simp only [evalAll, Option.some.injEq] at hv
    subst h; subst hv; rfl
  | case2 st ex t qs hok ih =>
    simp only [evalAll, Q.eval] at hv
    split at hv
    · next w x h1 h2 =>
      split at h2
      · next y z h3 h4 =>
        simp only [Option.some.injEq] at h1 h2 h3 hv
        subst h1; subst h2; subst h3; subst hv
        rw [← ih h h4]
        simp only [Bool.and_eq_true, Option.isNone_iff_eq_none, List.isEmpty_iff, Bool.not_eq_true', beq_iff_eq] at hok
        obtain ⟨⟨⟨⟨hq, hw⟩, hd⟩, hm⟩, hall⟩ := hok
        have hst : st = ⟨⟨none, [], false, st.pos.eq⟩, st.names⟩ := by
          obtain ⟨⟨q, w, d, e⟩, n⟩ := st
          simp only at hq hw hd; subst hq; subst hw; subst hd; rfl
        have := read_kws (kn := kn) hm (s.kw.filter fun kv => !ex.contains kv.1) st.pos.eq (fun kv hkv => by
          obtain ⟨hmem, hex⟩ := List.mem_filter.1 hkv
          obtain ⟨e, he, rfl⟩ := List.mem_map.1 (hrel.perm.mem_iff.1 hmem)
          have := List.all_eq_true.1 hall e (List.mem_filter.1 he).1
          simp only [Bool.or_eq_true, Bool.and_eq_true, Bool.not_eq_true'] at this
          have := this.resolve_left (by simpa using hex)
          exact ⟨this.1.1, by simpa using this.1.2, this.2⟩)
        rw [← hst] at this
        simp only [List.flatMap_append, List.flatMap_cons, List.flatMap_nil, seen, List.append_nil]
        rw [read_append, List.cons_append, read_cons, this, read_append]
      · simp at h2
    · simp at hv
  | case3 => simp at h
  | case4 st q qs hn w hw ih =>
    simp only [evalAll] at hv
    rw [val_eval hrel hw] at hv
    split at hv
    · next x y h1 h2 =>
      simp only [Option.some.injEq] at h1 hv
      subst h1; subst hv
      rw [List.flatMap_append, read_append]
      exact ih h h2
    · simp at hv
  | case5 => simp at h

theorem namesFin_sound {kn : List Str} {c : Call} {a : A} {s : St} (hrel : Rel c a s) {qs : List Q}
    (h : namesFin kn c.api a qs = true) {v : Val} (hv : evalAll c s qs = some v) :
    unbound kn v = [] := by
  unfold namesFin at h
  split at h
  · next st hst =>
    unfold unbound
    rw [read_append, scanQ_sound hrel qs first hst hv]
    simpa using h
  · simp at h

/-! ## The table -/

/-- The names of the helper. -/
def helperNames (cls : Str) (cfg : Cfg) : List Str :=
  match HelperText.helper cls cfg with
  | some t => defined t
  | none => []

/-- `fSoftmin` without the branches that need the helper. -/
def fSoftminPlain (cfg : Cfg) : K :=
  .save py"v" [.arg py"input"] <| .set py"input" [.lit py"-", .var py"v"] <|
  .has py"dim" (.test py"dim" (.isText py"None") .left (generic cfg)) .left

/-- `device2Str` without the branch that needs the helper. -/
def device2StrPlain (cfg : Cfg) : K :=
  .has py"device"
    (.pop py"device" py"d"
      (.ask (.var py"d") .digits (.set py"device" [.lit py"'gpu:", .edit .strip py"d", .lit py"'"] (generic cfg))
        (.ask (.var py"d") (.contains py"cuda") (.set py"device" [.edit .gpu py"d"] (generic cfg)) .left)))
    (generic cfg)

/-- The fixed names that the matcher assigns. -/
def scratchOf (cls : Str) : List Str := (Assigned.scratch.get? cls).getD []

/-- The code reads names that are known or in `ws`, and it assigns names that are generated or in `ts`. -/
def namesIn (ws ts : List Str) (name : Str) (cfg : Cfg) (g : K) : Bool :=
  g.checkAll ⟨apiVal name cfg, false, none, fun a qs => namesFin (known ++ ws) (apiVal name cfg) a qs &&
      targetsFin ts (apiVal name cfg) a qs⟩ (required name) (exclusive name) (A.start (params cfg) (required name))

/-- Two APIs whose code uses a name that does not exist. -/
def nameless : Dict Str (List Str) := [(py"torch.index_copy", [py"index"]), (py"torchvision.io.decode_jpeg", [py"cpu"])]

def excused (name : Str) : List Str := (nameless.get? name).getD []

def namesOk (cls name : Str) (cfg : Cfg) (g : K) : Bool :=
  let ts := scratchOf cls
  namesIn (helperNames cls cfg ++ excused name) ts name cfg g &&
    (!(cls == py"LogSoftmaxMatcher") || namesIn (excused name) ts name cfg g) &&
    (!(cls == py"FSoftMinMatcher") || decide (g = fSoftmin cfg) && namesIn (excused name) ts name cfg (fSoftminPlain cfg)) &&
    (!(cls == py"Device2StrMatcher") || decide (g = device2Str cfg) && namesIn (excused name) ts name cfg (device2StrPlain cfg))

def namesOn (rs : List Data.Raw) : Bool :=
  rs.all fun r => matchers.all fun m => !(Nat.beq (Data.encode m.1) r.matcher) || namesOk m.1 r.name r.cfg (m.2 r.name r.cfg)

theorem namesOn_entry (ht : ∀ i < 21, namesOn (part i) = true) {r : Data.Raw} (hr : r ∈ Data.apiTable)
    {m : Str × (Str → Cfg → K)} (hm : m ∈ matchers) (hc : m.1 = r.class) : namesOk m.1 r.name r.cfg (m.2 r.name r.cfg) = true := by
  obtain ⟨i, hi, hp⟩ := mem_part hr
  have h := List.all_eq_true.1 (List.all_eq_true.1 (ht i hi) r hp) m hm
  rw [Bool.or_eq_true] at h
  refine h.resolve_left ?_
  have hd := List.all_eq_true.1 class_table m hm
  have : r.matcher = Data.encode m.1 := (Data.decode_eq_iff (by simpa using hd)).1 hc.symm
  simp [this]

end Verif.Template
