import Verif.Lemmas.PythonParse
import Verif.Spec.Template

/-! # Reading code that consists of pieces -/

namespace Verif.Spec.Python
open Verif

/-- A piece of code, or the keyword arguments. -/
inductive AP
  | piece (p : Piece)
  | kws

/-- Like `Inst`, with the ends of lines inside the gaps. -/
def Raw : List ATok → List Tok → Prop
  | [], ts => ts = []
  | .tok t :: as, ts => ∃ us, ts = t :: us ∧ Raw as us
  | .hole n :: as, ts => ∃ a us, ts = a ++ us ∧ G (.expr n) (joinLines 0 a) ∧ Raw as us
  | .name :: as, ts => ∃ w us, ts = .word w :: us ∧ name w = true ∧ Raw as us
  | .target :: as, ts => ∃ a us, ts = a ++ us ∧ G .target (joinLines 0 a) ∧ Raw as us
  | .kws :: as, ts => ∃ a us, ts = a ++ us ∧ G .kwargs (joinLines 0 a) ∧ Raw as us

/-- `joinLines` for code with gaps. -/
def ajoin : Nat → List ATok → List ATok
  | _, [] => []
  | d, .tok t :: as =>
    match t with
    | .nl n => if d = 0 then .tok (.nl n) :: ajoin d as else ajoin d as
    | t => .tok t :: ajoin (depth d t) as
  | d, a :: as => a :: ajoin d as

theorem join_gap {c : Cat} {a us : List Tok} (h : G c (joinLines 0 a)) (hc : c ≠ .code) (d : Nat) :
    joinLines d (a ++ us) = joinLines 0 a ++ joinLines d us := by
  have := join_inside (balanced h) (noLine h hc) d
  rw [Nat.zero_add] at this
  rw [joinLines_append, this.1, this.2]

theorem Raw.join {as : List ATok} {ts : List Tok} (h : Raw as ts) (d : Nat) : Inst (ajoin d as) (joinLines d ts) := by
  induction as generalizing ts d with
  | nil => rw [show ts = [] from h]; rfl
  | cons x as ih =>
    cases x with
    | tok t =>
      obtain ⟨us, rfl, h⟩ := h
      cases t with
      | nl n =>
        simp only [ajoin, joinLines]
        split
        · exact ⟨_, rfl, ih h _⟩
        · exact ih h _
      | _ => exact ⟨_, rfl, ih h _⟩
    | hole n =>
      obtain ⟨a, us, rfl, hg, h⟩ := h
      exact ⟨_, _, join_gap hg (by simp) d, hg, ih h d⟩
    | name =>
      obtain ⟨w, us, rfl, hw, h⟩ := h
      exact ⟨w, _, rfl, hw, ih h d⟩
    | target =>
      obtain ⟨a, us, rfl, hg, h⟩ := h
      exact ⟨_, _, join_gap hg (by simp) d, hg, ih h d⟩
    | kws =>
      obtain ⟨a, us, rfl, hg, h⟩ := h
      exact ⟨_, _, join_gap hg (by simp) d, hg, ih h d⟩

/-- The character can come after what was read before. -/
def pendOk (pend : Option Nat) (c : Char) : Bool :=
  match pend with
  | none => true
  | some n => okNext n c

def toks (ts : List Tok) : List ATok := ts.map .tok

/-- How the text of a piece binds. -/
def level : Piece → Nat
  | .edited _ _ => 13
  | _ => 14

def isName (t : Str) : Bool :=
  match t with
  | [] => false
  | c :: u => kind c == .letter && (u.all fun d => kind d == .letter || kind d == .digit) && name t

def stripped : Piece → Bool
  | .edited _ .strip => true
  | _ => false

theorem Target.expr {t : Str} (h : Target t) : Expr 14 t := by
  obtain ⟨hb, ts, hl, hg⟩ := h
  exact ⟨hb, ts, hl, expr_of_target hg⟩

/-- What is special about the code. -/
inductive Special
  | no
  /-- texts without their parentheses are inside strings -/
  | quoted
  /-- the text of this argument can be assigned to -/
  | assigned (k : Str)

def inString (sp : Special) (p : Piece) : Bool :=
  match sp with
  | .quoted => stripped p
  | _ => false

def isTarget (sp : Special) (p : Piece) : Bool :=
  match sp, p with
  | .assigned k, .user j => j == k
  | _, _ => false

def gap (sp : Special) (p : Piece) : ATok := if isTarget sp p then .target else .hole (level p)

/-- The tokens of the code. -/
def alex (sp : Special) : Mode → Option Nat → List AP → Option (List ATok)
  | m, _, [] => (flush m).map toks
  | m, pend, .kws :: ps =>
    match pend, ready m, flush m, ps with
    | none, true, some fs, .piece (.code (c :: _)) :: _ =>
      if c = ')' then (alex sp .start none ps).map fun as => toks fs ++ .kws :: as else none
    | _, _, _, _ => none
  | m, pend, .piece p :: ps =>
    match p with
    | .code s =>
      match s with
      | [] => alex sp m pend ps
      | c :: cs =>
        if pendOk pend c then
          match run m (c :: cs) with
          | some (ts, m') => (alex sp m' none ps).map fun as => toks ts ++ as
          | none => none
        else none
    | .name s =>
      match pend, ready m && isName s, flush m with
      | none, true, some fs => (alex sp .start (some 14) ps).map fun as => toks fs ++ .name :: as
      | _, _, _ => none
    | p =>
      if inString sp p then
        match pend, m with
        | none, .str q => if kind q = .quote then alex sp (.str q) none ps else none
        | _, _ => none
      else
        match pend, ready m, flush m with
        | none, true, some fs => (alex sp .start (some (level p)) ps).map fun as => toks fs ++ gap sp p :: as
        | _, _, _ => none

theorem isName_sound {t : Str} (h : isName t = true) : Name t := by
  unfold isName at h
  split at h
  · simp at h
  · next c u =>
    simp only [Bool.and_eq_true, beq_iff_eq, List.all_eq_true, Bool.or_eq_true] at h
    exact ⟨h.2, c, u, rfl, h.1.1, h.1.2⟩

/-- A text that does not end a string. -/
def Quiet (t : Str) : Prop := ∀ c ∈ t, kind c ≠ .quote ∧ c.toNat ≠ 92 ∧ c.toNat ≠ 10

theorem run_quiet {q : Char} (hq : kind q = .quote) {t : Str} (h : Quiet t) : run (.str q) t = some ([], .str q) := by
  induction t with
  | nil => rfl
  | cons c t ih =>
    have hc := h c (List.mem_cons_self ..)
    have : ext (.str q) c = .more [] (.str q) := by
      have : c ≠ q := fun e => hc.1 (e ▸ hq)
      simp [ext, inStr, this, hc.2.1, hc.2.2]
    simp [run, step, this, ih fun d hd => h d (List.mem_cons_of_mem _ hd)]

theorem run_word {s t : Str} (h : ∀ d ∈ t, kind d = .letter ∨ kind d = .digit) :
    run (.word s) t = some ([], .word (t.reverse ++ s)) := by
  induction t generalizing s with
  | nil => rfl
  | cons c t ih =>
    have : ext (.word s) c = .more [] (.word (c :: s)) := by
      rcases h c (List.mem_cons_self ..) with h | h <;> simp [ext, h]
    simp [run, step, this, ih fun d hd => h d (List.mem_cons_of_mem _ hd)]

theorem Name.run {t : Str} (h : Name t) : run .start t = some ([], .word t.reverse) := by
  obtain ⟨-, c, u, rfl, hc, hu⟩ := h
  have : step .start c = some ([], .word [c]) := by simp [step, ext, flush, begins, hc]
  simp [Python.run, this, run_word hu]

theorem Name.lex {t : Str} (h : Name t) : Python.lex .start t = some [.word t] := by
  have := lex_append (t := []) h.run (us := [.word t]) (by simp [Python.lex, flush])
  simpa using this

theorem Name.expr {t : Str} (h : Name t) : Expr 14 t := by
  refine ⟨fun c u e => ?_, _, h.lex, .val (value_of_name h.1)⟩
  obtain ⟨-, c', u', rfl, hc, -⟩ := h
  simp only [List.cons.injEq] at e
  rw [← e.1, hc]
  simp

/-- A name is read as such inside a text. -/
theorem lex_name {t u : Str} {m : Mode} (he : Name t) (hm : ready m = true) {fs us : List Tok}
    (hf : flush m = some fs) (hu : lex .start u = some us) (hn : ∀ c v, u = c :: v → okNext 14 c = true) :
    lex m (t ++ u) = some (fs ++ .word t :: us) := by
  have h3 : lex (.word t.reverse) u = some ([.word t] ++ us) := by
    cases u with
    | nil => simp only [lex, flush, Option.some.injEq] at hu; subst hu; simp [lex, flush]
    | cons c v =>
      refine lex_stop (last_stop he.expr he.run rfl (hn c v rfl)) (by simp [flush]) hu
  have h4 : lex .start (t ++ u) = some ([] ++ ([.word t] ++ us)) := lex_append he.run h3
  cases t with
  | nil => obtain ⟨-, c, u, h, -⟩ := he; simp at h
  | cons c t => exact lex_stop (first_stop he.expr hm) hf h4

/-- The text can be used for keyword arguments. -/
def Kws (t : Str) : Prop :=
  ∀ (m : Mode) (fs us : List Tok) (u : Str), ready m = true → flush m = some fs → lex .start (')' :: u) = some us →
    ∃ ts, lex m (t ++ ')' :: u) = some (fs ++ (ts ++ us)) ∧ G .kwargs (joinLines 0 ts)

/-- The text can be used for the piece. -/
def Fits (sp : Special) : AP → Str → Prop
  | .kws, t => Kws t
  | .piece (.code s), t => t = s
  | .piece (.name s), t => Name s → Name t
  | .piece p, t =>
    if inString sp p = true then Quiet t else if isTarget sp p = true then Target t else Expr (level p) t

theorem Raw.toks {o : List Tok} {as : List ATok} {us : List Tok} (h : Raw as us) : Raw (toks o ++ as) (o ++ us) := by
  induction o with
  | nil => exact h
  | cons t o ih => exact ⟨_, rfl, ih⟩

theorem Raw.ofToks (o : List Tok) : Raw (Python.toks o) o := by
  have := Raw.toks (o := o) (as := []) (us := []) rfl
  simpa using this

/-- What `alex` reads is there in every text that the pieces stand for. -/
theorem alex_sound {sp : Special} {xs : List (AP × Str)} (hx : ∀ x ∈ xs, Fits sp x.1 x.2) {m : Mode} {pend : Option Nat}
    (hp : pend ≠ none → m = .start) {as : List ATok} (h : alex sp m pend (xs.map Prod.fst) = some as) :
    (∃ ts, lex m (xs.flatMap Prod.snd) = some ts ∧ Raw as ts) ∧
      ∀ n c v, pend = some n → xs.flatMap Prod.snd = c :: v → okNext n c = true := by
  induction xs generalizing m pend as with
  | nil =>
    simp only [List.map_nil, alex, Option.map_eq_some_iff] at h
    obtain ⟨fs, hf, rfl⟩ := h
    exact ⟨⟨fs, hf, .ofToks fs⟩, by simp⟩
  | cons x xs ih =>
    obtain ⟨a, t⟩ := x
    have hfit : Fits sp a t := hx _ (List.mem_cons_self ..)
    replace hx : ∀ x ∈ xs, Fits sp x.1 x.2 := fun y hy => hx y (List.mem_cons_of_mem _ hy)
    rw [List.map_cons] at h
    rw [List.flatMap_cons]
    have hole : ∀ {n : Nat} {g : ATok} {fs : List Tok} {as : List ATok}, Expr n t →
        (∀ ts us as, lex .start t = some ts → Raw as us → Raw (g :: as) (ts ++ us)) → pend = none → ready m = true →
        flush m = some fs → ((alex sp .start (some n) (xs.map Prod.fst)).map fun as => toks fs ++ g :: as) = some as →
        (∃ ts, lex m (t ++ xs.flatMap Prod.snd) = some ts ∧ Raw as ts) ∧
          ∀ n c v, pend = some n → t ++ xs.flatMap Prod.snd = c :: v → okNext n c = true := by
      intro n g fs as he hg hpe hm hf h
      simp only [Option.map_eq_some_iff] at h
      obtain ⟨bs, hb, rfl⟩ := h
      obtain ⟨⟨us, hu, hr⟩, hok⟩ := ih hx (by simp) hb
      obtain ⟨ts, hts, hl⟩ := lex_inside he hm hf hu (fun c v e => hok n c v rfl e)
      exact ⟨⟨_, hts, Raw.toks (hg _ _ _ hl hr)⟩, by simp [hpe]⟩
    have exprHole : ∀ {n : Nat}, Expr n t →
        ∀ ts us as, lex .start t = some ts → Raw as us → Raw (.hole n :: as) (ts ++ us) := by
      rintro n ⟨-, ts', hl', hg⟩ ts us as hl hr
      rw [hl', Option.some.injEq] at hl
      exact ⟨ts, us, rfl, hl ▸ hg, hr⟩
    cases a with
    | kws =>
      simp only [alex] at h
      split at h
      · next fs c _ qs _ hm hf hps =>
        split at h
        · next hc =>
          subst hc
          simp only [Option.map_eq_some_iff] at h
          obtain ⟨bs, hb, rfl⟩ := h
          obtain ⟨⟨us, hu, hr⟩, -⟩ := ih hx (by simp) hb
          cases xs with
          | nil => simp at hps
          | cons y ys =>
            obtain ⟨b, s⟩ := y
            simp only [List.map_cons, List.cons.injEq] at hps
            obtain ⟨rfl, -⟩ := hps
            have hs : s = _ := hx _ (List.mem_cons_self ..)
            subst hs
            rw [List.flatMap_cons] at hu ⊢
            obtain ⟨ts, hts, hg⟩ := hfit _ _ _ _ hm hf hu
            exact ⟨⟨_, hts, Raw.toks ⟨ts, us, rfl, hg, hr⟩⟩, by simp⟩
        · simp at h
      · simp at h
    | piece p =>
      cases p with
      | code s =>
        have hs : t = s := hfit
        subst hs
        simp only [alex] at h
        cases t with
        | nil => exact ih hx hp h
        | cons c cs =>
          simp only at h
          split at h
          · next hpe =>
            split at h
            · next ts m' hr =>
              simp only [Option.map_eq_some_iff] at h
              obtain ⟨bs, hb, rfl⟩ := h
              obtain ⟨⟨us, hu, hraw⟩, -⟩ := ih hx (by simp) hb
              refine ⟨⟨_, lex_append hr hu, hraw.toks⟩, ?_⟩
              intro n c' v hn e
              simp only [List.cons_append, List.cons.injEq] at e
              rw [← e.1]
              simpa [pendOk, hn] using hpe
            · simp at h
          · simp at h
      | name s =>
        simp only [alex] at h
        split at h
        · next fs hm hf =>
          simp only [Bool.and_eq_true] at hm
          obtain ⟨hm, hs⟩ := hm
          have hfit : Name t := hfit (isName_sound hs)
          simp only [Option.map_eq_some_iff] at h
          obtain ⟨bs, hb, rfl⟩ := h
          obtain ⟨⟨us, hu, hr⟩, hok⟩ := ih hx (by simp) hb
          exact ⟨⟨_, lex_name hfit hm hf hu (fun c v e => hok 14 c v rfl e), Raw.toks ⟨t, us, rfl, hfit.1, hr⟩⟩, by simp⟩
        · simp at h
      | user k =>
        have hs : inString sp (.user k) = false := by cases sp <;> rfl
        simp only [alex, hs, Bool.false_eq_true, if_false] at h
        simp only [Fits, hs, Bool.false_eq_true, if_false] at hfit
        split at h
        · next fs hm hf =>
          by_cases ht : isTarget sp (.user k) = true
          · simp only [gap, ht, if_true] at h hfit
            refine hole hfit.expr ?_ rfl hm hf h
            rintro ts us as hl hr
            obtain ⟨-, ts', hl', hg⟩ := hfit
            rw [hl', Option.some.injEq] at hl
            exact ⟨ts, us, rfl, hl ▸ hg, hr⟩
          · simp only [gap, ht] at h hfit
            exact hole hfit (exprHole hfit) rfl hm hf h
        · simp at h
      | recv =>
        have hs : inString sp .recv = false := by cases sp <;> rfl
        have ht : isTarget sp .recv = false := by cases sp <;> rfl
        simp only [alex, hs, gap, ht, Bool.false_eq_true, if_false] at h
        simp only [Fits, hs, ht, Bool.false_eq_true, if_false] at hfit
        split at h
        · next fs hm hf => exact hole hfit (exprHole hfit) rfl hm hf h
        · simp at h
      | edited k e =>
        simp only [alex] at h
        split at h
        · next hq =>
          split at h
          · next q =>
            split at h
            · next hk =>
              have hfit : Quiet t := by simpa only [Fits, hq, if_true] using hfit
              obtain ⟨⟨us, hu, hr⟩, -⟩ := ih hx (by simp) h
              exact ⟨⟨_, lex_append (run_quiet hk hfit) hu, hr⟩, by simp⟩
            · simp at h
          · simp at h
        · next hq =>
          have ht : isTarget sp (.edited k e) = false := by cases sp <;> rfl
          simp only [gap, ht, Bool.false_eq_true, if_false] at h
          simp only [Fits, if_neg hq, ht, Bool.false_eq_true, if_false] at hfit
          split at h
          · next fs hm hf => exact hole hfit (exprHole hfit) rfl hm hf h
          · simp at h

/-! ## Keyword arguments -/

theorem Kws.nil : Kws [] := by
  intro m fs us u hm hf hu
  refine ⟨[], ?_, .noKw⟩
  refine lex_stop ?_ hf hu
  cases m with
  | start => rfl
  | nl k => rfl
  | op s =>
    simp only [ext]
    split
    · next h => have := longOps_last h; simp at this
    · rfl
  | _ => simp [ready] at hm

theorem okNext_comma (n : Nat) : okNext n ',' = true := by
  have h1 : kind ',' = .punct := by decide
  have h2 : (',').toNat = 44 := by decide
  simp [okNext, h1, h2]

theorem okNext_close (n : Nat) : okNext n ')' = true := by
  have h1 : kind ')' = .punct := by decide
  have h2 : (')').toNat = 41 := by decide
  simp [okNext, h1, h2]

theorem lex_key {k : Str} (hk : Name k) {m : Mode} {fs : List Tok} (hm : ready m = true) (hf : flush m = some fs) {v : Str}
    (hv : Expr 0 v) {u : Str} {us : List Tok} (hu : lex .start u = some us) (hn : ∀ c w, u = c :: w → okNext 0 c = true) :
    ∃ ts, lex m ((k ++ py"=") ++ (v ++ u)) = some (fs ++ (.word k :: .op py"=" :: (ts ++ us))) ∧
      G (.expr 0) (joinLines 0 ts) := by
  obtain ⟨ts, ht, hg⟩ := lex_hole hv (m := .op py"=") rfl rfl hu hn
  refine ⟨ts, ?_, hg⟩
  have h1 : lex .start (py"=" ++ (v ++ u)) = some (.op py"=" :: (ts ++ us)) := by
    have : run .start py"=" = some ([], .op py"=") := by decide
    have := lex_append this ht
    simpa using this
  have := lex_name hk hm hf h1 (fun c w e => by
    have : '=' = c := (List.cons.inj e).1
    subst this; decide)
  rw [List.append_assoc]
  exact this

theorem join_key (k : Str) (ts us : List Tok) (hg : G (.expr 0) (joinLines 0 ts)) :
    joinLines 0 (.word k :: .op py"=" :: (ts ++ us)) = .word k :: .op py"=" :: (joinLines 0 ts ++ joinLines 0 us) := by
  have h1 : depth 0 (.op py"=") = 0 := by decide
  have h2 : depth 0 (.word k) = 0 := rfl
  simp only [joinLines, h1, h2, join_gap hg (by simp)]

/-- The text of keyword arguments. -/
def kwText : List (Str × Str) → Str
  | [] => []
  | [(k, v)] => (k ++ py"=") ++ v
  | (k, v) :: d => (k ++ py"=") ++ (v ++ (py", " ++ kwText d))

theorem Kws.of : ∀ {d : List (Str × Str)}, (∀ kv ∈ d, Name kv.1 ∧ Expr 0 kv.2) → Kws (kwText d)
  | [], _ => Kws.nil
  | [(k, v)], h => by
    intro m fs us u hm hf hu
    obtain ⟨hk, hv⟩ := h _ (List.mem_cons_self ..)
    obtain ⟨ts, ht, hg⟩ := lex_key hk hm hf hv hu (fun c w e => by
      simp only [List.cons.injEq] at e; rw [← e.1]; exact okNext_close 0)
    refine ⟨.word k :: .op py"=" :: ts, by simpa [kwText] using ht, ?_⟩
    have := join_key k ts [] hg
    simp only [List.append_nil, joinLines] at this ⊢
    rw [this]
    exact .oneKw hk.1 hg
  | (k, v) :: kv :: d, h => by
    intro m fs us u hm hf hu
    obtain ⟨hk, hv⟩ := h _ (List.mem_cons_self ..)
    have hr := Kws.of (d := kv :: d) (fun x hx => h x (List.mem_cons_of_mem _ hx))
    obtain ⟨rs, hrs, hrg⟩ := hr .start _ _ _ rfl rfl hu
    have h1 : lex .start (py", " ++ (kwText (kv :: d) ++ ')' :: u)) = some (.op py"," :: (rs ++ us)) := by
      have : run .start py", " = some ([.op py","], .start) := by decide
      have := lex_append this hrs
      simpa using this
    obtain ⟨ts, ht, hg⟩ := lex_key hk hm hf hv h1 (fun c w e => by
      have : ',' = c := (List.cons.inj e).1
      subst this; exact okNext_comma 0)
    refine ⟨.word k :: .op py"=" :: (ts ++ .op py"," :: rs), ?_, ?_⟩
    · simp only [kwText, List.append_assoc, List.cons_append] at ht ⊢
      exact ht
    · rw [join_key k ts _ hg]
      have h2 : depth 0 (.op py",") = 0 := by decide
      simp only [joinLines, h2]
      exact .moreKws hk.1 hg hrg

end Verif.Spec.Python
