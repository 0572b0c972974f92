import Verif.Proofs.GoPut
import Verif.Proofs.SymExec
/-!
# What fills the holes consists of tokens

`Fill.Good` are the conditions under which the substitution of the holes is as the symbolic lexer assumes.
-/

namespace Gowrap.Go

open Gowrap

/-- More tokens before. -/
def State.add (r : State) (t0 : List Tok) : State := ⟨r.mode, r.semi, r.toks ++ t0⟩

theorem flush_add (r : State) (t0 : List Tok) : (r.add t0).flush = r.flush.add t0 := by
  obtain ⟨m, s, t⟩ := r
  cases m <;> try rfl
  next acc =>
    simp only [State.add, State.flush]
    split <;> rfl

theorem first_add (r : State) (t0 : List Tok) (c : Char) : (r.add t0).first c = (r.first c).add t0 := by
  obtain ⟨m, s, t⟩ := r
  simp only [State.first, State.add]
  cases s <;> (repeat' split) <;> first | rfl | contradiction

theorem step_add (r : State) (t0 : List Tok) (c : Char) : (r.add t0).step c = (r.step c).add t0 := by
  obtain ⟨m, s, t⟩ := r
  cases m with
  | start => exact first_add _ _ _
  | word acc =>
    have := flush_add ⟨.word acc, s, t⟩ t0
    simp only [State.add] at this
    simp only [State.step, State.add, this]
    split
    · rfl
    · exact first_add _ _ _
  | num acc =>
    have := flush_add ⟨.num acc, s, t⟩ t0
    simp only [State.add] at this
    simp only [State.step, State.add, this]
    split
    · rfl
    · exact first_add _ _ _
  | str acc =>
    simp only [State.step, State.add]
    repeat' split
    all_goals rfl
  | op acc =>
    have := flush_add ⟨.op acc, s, t⟩ t0
    simp only [State.add] at this
    simp only [State.step, State.add, this]
    repeat' split
    all_goals first | rfl | exact first_add _ _ _
  | comment =>
    simp only [State.step, State.add]
    split
    · exact first_add ⟨.start, s, t⟩ t0 c
    · rfl
  | failed => rfl

theorem run_add (s : Str) : ∀ (r : State) (t0 : List Tok), (r.add t0).run s = (r.run s).add t0 := by
  induction s with
  | nil => exact fun _ _ => rfl
  | cons c s ih =>
    intro r t0
    show ((r.add t0).step c).run s = ((r.step c).run s).add t0
    rw [step_add, ih]

/-- The tokens before do not matter. -/
theorem run_base (s : Str) (sm : Bool) (t0 : List Tok) :
    State.run ⟨.start, sm, t0⟩ s = (State.run ⟨.start, sm, []⟩ s).add t0 := run_add s ⟨.start, sm, []⟩ t0

/-- Every hole for tokens ends in such a state. -/
def State.Resting (r : State) : Prop := r.mode = .start ∨ (∃ acc, r.mode = .word acc) ∨ r.mode = .op g!"..."

theorem resting_step (r : State) (h : r.Resting) (c : Char) (hc : (letter c || digit c) = false) : r.step c = r.flush.first c := by
  obtain ⟨m, s, t⟩ := r
  rcases h with h | ⟨acc, h⟩ | h <;> simp only at h <;> subst h
  · rfl
  · simp only [State.step]; rw [if_neg (by simp [hc])]
  · exact step_op_dots s t c

theorem resting_flush (r : State) (h : r.Resting) : r.flush.mode = .start := by
  obtain ⟨m, s, t⟩ := r
  rcases h with h | ⟨acc, h⟩ | h <;> simp only at h <;> subst h <;> rfl

theorem run_name (s : Str) (h : IsWord s) (sm : Bool) (ts : List Tok) :
    State.run ⟨.start, sm, ts⟩ s = ⟨.word s.reverse, sm, ts⟩ := by
  obtain ⟨⟨c, w, rfl, hc⟩, hall⟩ := h
  show State.run (State.first _ c) w = _
  rw [first_letter _ c hc, run_word _ _ _ w (fun y hy => hall y (by simp [hy]))]
  simp

theorem name_ends (s : Str) (h : IsName s) : wordEnds s = true := by
  unfold wordEnds
  rw [List.contains_eq_mem]
  simp [h.2]

/-- A text that consists of tokens. -/
def Item (need : Bool) (t : Str) (toks : List Tok) : Prop := ∀ sm ts,
  let r := State.run ⟨.start, sm, ts⟩ t
  r.Resting ∧ r.flush.toks = toks.reverse ++ ts ∧ (need = true → r.flush.semi = true)

/-- A separator. -/
def Separates (need : Bool) (sep : Str) (o : Str) : Prop := ∀ r : State, r.Resting → (need = true → r.flush.semi = true) →
  r.run sep = ⟨.start, false, .op o :: r.flush.toks⟩

/-- The tokens of a list. -/
def sepToks (o : Str) : List (List Tok) → List Tok
  | [] => []
  | [t] => t
  | t :: ts => t ++ .op o :: sepToks o ts

theorem Item.name (s : Str) (h : IsName s) : Item true s [.word s] := by
  intro sm ts
  rw [run_name s h.1]
  exact ⟨.inr (.inl ⟨_, rfl⟩), by simp [State.flush], by simp [State.flush, name_ends s h]⟩

theorem Item.weaken {t : Str} {toks : List Tok} (h : Item true t toks) (b : Bool) : Item b t toks :=
  fun sm ts => ⟨(h sm ts).1, (h sm ts).2.1, fun _ => (h sm ts).2.2 rfl⟩

theorem item_join (need : Bool) (sep o : Str) (hs : Separates need sep o) (l : List (Str × List Tok))
    (h : ∀ x ∈ l, Item need x.1 x.2) (hn : need = true → l ≠ []) :
    Item need (join sep (l.map (·.1))) (sepToks o (l.map (·.2))) := by
  induction l with
  | nil => exact fun sm ts => ⟨.inl rfl, rfl, fun hne => absurd rfl (hn hne)⟩
  | cons x l ih =>
    cases l with
    | nil => exact h x (by simp)
    | cons y l =>
      intro sm ts
      have e1 : join sep ((x :: y :: l).map (·.1)) = x.1 ++ (sep ++ join sep ((y :: l).map (·.1))) := by simp [join]
      have e2 : sepToks o ((x :: y :: l).map (·.2)) = x.2 ++ .op o :: sepToks o ((y :: l).map (·.2)) := rfl
      rw [e1, e2]
      obtain ⟨h1, h2, h3⟩ := h x (by simp) sm ts
      have := ih (fun z hz => h z (by simp [hz])) (by simp) false (.op o :: (State.run ⟨.start, sm, ts⟩ x.1).flush.toks)
      rw [State.run_append, State.run_append, hs _ h1 h3]
      refine ⟨this.1, ?_, this.2.2⟩
      rw [this.2.1, h2]
      simp

theorem sep_comma (need : Bool) : Separates need g!", " g!"," := by
  intro r h _
  show State.run (State.step (State.step r ',') ' ') [] = _
  rw [resting_step r h ',' (by decide)]
  have := resting_flush r h
  generalize r.flush = r' at this
  obtain ⟨m, s, t⟩ := r'
  cases this
  rfl

theorem sep_commaLine (need : Bool) : Separates need g!",\n " g!"," := by
  intro r h _
  show State.run (State.step (State.step (State.step r ',') '\n') ' ') [] = _
  rw [resting_step r h ',' (by decide)]
  have := resting_flush r h
  generalize r.flush = r' at this
  obtain ⟨m, s, t⟩ := r'
  cases this
  rfl

theorem sep_line : Separates true g!"\n " g!";" := by
  intro r h hs
  show State.run (State.step (State.step r '\n') ' ') [] = _
  rw [resting_step r h '\n' (by decide)]
  have := resting_flush r h
  have hs := hs rfl
  generalize r.flush = r' at this hs
  obtain ⟨m, s, t⟩ := r'
  cases this
  cases hs
  rfl

end Gowrap.Go

namespace Gowrap.Tmpl

open Gowrap Go

/-- The text of a type: it consists of tokens after which a semicolon is inserted. -/
def TypeText (s : Str) : Prop := ∀ sm,
  let r := State.run ⟨.start, sm, []⟩ s
  (r.mode = .start ∨ ∃ acc, r.mode = .word acc) ∧ r.flush.toks = (lexed s).reverse ∧ r.flush.semi = true

theorem TypeText.item {s : Str} (h : TypeText s) : Item true s (lexed s) := by
  intro sm ts
  obtain ⟨h1, h2, h3⟩ := h sm
  rw [run_base]
  refine ⟨?_, ?_, ?_⟩
  · rcases h1 with h | h
    · exact .inl h
    · exact .inr (.inl h)
  · rw [flush_add]; show _ ++ _ = _; rw [h2]
  · intro _; rw [flush_add]; exact h3

/-- A name and a type. -/
theorem item_param (n t : Str) (hn : IsName n) (ht : TypeText t) : Item true (n ++ g!" " ++ t) (.word n :: lexed t) := by
  intro sm ts
  rw [List.append_assoc, State.run_append, run_name n hn.1, State.run_append]
  have e : State.run ⟨.word n.reverse, sm, ts⟩ g!" " = ⟨.start, true, .word n :: ts⟩ := by
    show State.step ⟨.word n.reverse, sm, ts⟩ ' ' = _
    rw [resting_step _ (.inr (.inl ⟨_, rfl⟩)) ' ' (by decide)]
    simp [State.flush, State.first, name_ends n hn]
  rw [e]
  obtain ⟨h1, h2, h3⟩ := ht.item true (.word n :: ts)
  exact ⟨h1, by rw [h2]; simp, h3⟩

theorem item_pass (p : Param) (hn : IsName p.name) : Item false p.pass ((argExpr p).put []) := by
  intro sm ts
  unfold Param.pass argExpr
  cases hv : p.variadic with
  | false => exact ((Item.name p.name hn).weaken false) sm ts
  | true =>
    rw [if_pos rfl, if_pos rfl, State.run_append, run_name _ hn.1]
    have e : State.run ⟨.word p.name.reverse, sm, ts⟩ g!"..." = ⟨.op g!"...", true, .word p.name :: ts⟩ := by
      show State.step (State.step (State.step ⟨.word p.name.reverse, sm, ts⟩ '.') '.') '.' = _
      rw [resting_step ⟨.word p.name.reverse, sm, ts⟩ (.inr (.inl ⟨_, rfl⟩)) (Char.ofNat 46) (by decide)]
      have : (State.flush ⟨.word p.name.reverse, sm, ts⟩).first '.' = ⟨.op g!".", true, .word p.name :: ts⟩ := by
        simp only [State.flush, List.reverse_reverse, name_ends _ hn]
        rfl
      rw [this]
      rfl
    rw [e]
    exact ⟨.inr (.inr rfl), by simp [State.flush, Expr.put], by simp⟩

theorem item_resField (r : Str) (hn : IsName r) : Item true (g!"_res" ++ g!"." ++ r) [.word g!"_res", .op g!".", .word r] := by
  intro sm ts
  rw [List.append_assoc, State.run_append, State.run_append]
  have e : State.run (State.run ⟨.start, sm, ts⟩ g!"_res") g!"." = ⟨.op g!".", true, .word g!"_res" :: ts⟩ := by rfl
  rw [e]
  have e2 : State.run ⟨.op g!".", true, .word g!"_res" :: ts⟩ r = ⟨.word r.reverse, false, .op g!"." :: .word g!"_res" :: ts⟩ := by
    obtain ⟨⟨c, w, rfl, hc⟩, hall⟩ := hn.1
    show State.run (State.step _ c) w = _
    rw [step_op_letter _ _ _ c hc (by decide)]
    show State.run (State.first _ c) w = _
    rw [first_letter _ c hc, run_word _ _ _ w (fun y hy => hall y (by simp [hy]))]
    simp [State.flush, opEnds]
  rw [e2]
  exact ⟨.inr (.inl ⟨_, rfl⟩), by simp [State.flush], by simp [State.flush, name_ends r hn]⟩

theorem item_pair (n : Str) (hn : IsName n) : Item true (g!"\"" ++ n ++ g!"\": " ++ n) [.str n, .op g!":", .word n] := by
  intro sm ts
  rw [List.append_assoc, List.append_assoc, State.run_append, State.run_append, State.run_append]
  have e : State.run (State.run (State.run ⟨.start, sm, ts⟩ g!"\"") n) g!"\": " = ⟨.start, false, .op g!":" :: .str n :: ts⟩ := by
    have : State.run ⟨.start, sm, ts⟩ g!"\"" = ⟨.str [], sm, ts⟩ := rfl
    rw [this, run_str _ _ _ n hn.1.inert, List.append_nil]
    show State.step (State.step (State.step ⟨.str n.reverse, sm, ts⟩ '"') ':') ' ' = _
    have : State.step ⟨.str n.reverse, sm, ts⟩ '"' = ⟨.start, true, .str n :: ts⟩ := by simp [State.step]
    rw [this]
    rfl
  rw [e, run_name n hn.1]
  exact ⟨.inr (.inl ⟨_, rfl⟩), by simp [State.flush], by simp [State.flush, name_ends n hn]⟩

/-! ## The tokens of lists -/

theorem commas_names (l : List Param) : putExprs (l.map fun p => Go.Expr.id p.name) [] = sepToks g!"," (l.map fun p => [.word p.name]) := by
  cases l with
  | nil => rfl
  | cons p l =>
    show Go.Tok.word p.name :: putRest _ [] = _
    induction l generalizing p with
    | nil => rfl
    | cons q l ih =>
      show Go.Tok.word p.name :: (.op g!"," :: (Go.Tok.word q.name :: putRest _ [])) = _
      rw [ih q]
      rfl

theorem commas_args (l : List Param) : putExprs (l.map argExpr) [] = sepToks g!"," (l.map fun p => (argExpr p).put []) := by
  have hk : ∀ (p : Param) k, (argExpr p).put k = (argExpr p).put [] ++ k := by
    intro p k
    unfold argExpr
    cases p.variadic <;> rfl
  cases l with
  | nil => rfl
  | cons p l =>
    show (argExpr p).put (putRest _ []) = _
    induction l generalizing p with
    | nil => rfl
    | cons q l ih =>
      show (argExpr p).put (.op g!"," :: (argExpr q).put (putRest _ [])) = _
      rw [ih q, hk]
      rfl

theorem commas_fields (l : List Param) : putExprs (l.map fun r => Go.Expr.sel (.id g!"_res") r.name) [] =
    sepToks g!"," (l.map fun r => [.word g!"_res", .op g!".", .word r.name]) := by
  cases l with
  | nil => rfl
  | cons p l =>
    show Go.Tok.word g!"_res" :: .op g!"." :: .word p.name :: putRest _ [] = _
    induction l generalizing p with
    | nil => rfl
    | cons q l ih =>
      show Go.Tok.word g!"_res" :: .op g!"." :: .word p.name :: (.op g!"," ::
        (Go.Tok.word g!"_res" :: .op g!"." :: .word q.name :: putRest _ [])) = _
      rw [ih q]
      rfl

theorem commas_pairs (l : List Param) (k : List Go.Tok) : putExprs (l.map fun p => Go.Expr.pair (.str p.name) (.id p.name)) k =
    sepToks g!"," (l.map fun p => [.str p.name, .op g!":", .word p.name]) ++ k := by
  cases l with
  | nil => rfl
  | cons p l =>
    show Go.Tok.str p.name :: .op g!":" :: .word p.name :: putRest _ k = _
    induction l generalizing p with
    | nil => rfl
    | cons q l ih =>
      show Go.Tok.str p.name :: .op g!":" :: .word p.name :: (.op g!"," ::
        (Go.Tok.str q.name :: .op g!":" :: .word q.name :: putRest _ k)) = _
      rw [ih q]
      rfl

theorem commas_params (l : List Param) : putGroups (paramDecls l) [] = sepToks g!"," (l.map fun p => .word p.name :: lexed p.type) := by
  induction l with
  | nil => rfl
  | cons p l ih =>
    cases l with
    | nil => simp [paramDecls, putGroups, Group.put, putNames, Ty.put, sepToks]
    | cons q l =>
      show Go.Tok.word p.name :: (lexed p.type ++ .op g!"," :: putGroups (paramDecls (q :: l)) []) = _
      rw [ih]
      rfl

theorem lines_fields (l : List Param) : putStruct (paramDecls l) [] = sepToks g!";" (l.map fun p => .word p.name :: lexed p.type) := by
  induction l with
  | nil => rfl
  | cons p l ih =>
    cases l with
    | nil => simp [paramDecls, putStruct, Group.put, putNames, Ty.put, sepToks]
    | cons q l =>
      show Go.Tok.word p.name :: (lexed p.type ++ .op g!";" :: putStruct (paramDecls (q :: l)) []) = _
      rw [ih]
      rfl

/-! ## The laws -/

/-- Parameters or results. -/
def ParamsGood (l : List Param) : Prop := ∀ p ∈ l, IsName p.name ∧ TypeText p.type

/-- A text in which every statement or declaration ends with a line. -/
def LinesOk (need : Bool) (text : Str) (toks : List Go.Tok) : Prop := ∀ ts,
  State.run ⟨.start, need, ts⟩ text = ⟨.start, false, toks.reverse ++ ts⟩

/-- What is required of the parts of generated code. -/
structure Fill.Good (f : Fill) : Prop where
  name : IsName f.name
  down : IsWord (f.u.lower f.name)
  type : TypeText f.type
  typeLead : ∃ c r, f.type = c :: r ∧ letter c = true
  typeInert : Inert f.type
  dec : IsName f.dec
  option : IsName f.option
  component : Inert f.component
  metric : Inert f.metric
  span : Inert f.span
  method : IsName f.m.name
  params : ParamsGood f.m.params
  results : ParamsGood f.m.results
  param : IsName f.p.name
  snake : Inert (f.u.snake f.p.name)
  ploop : LinesOk f.ploopSemi f.ploopText (bif f.ploopSemi then .op g!";" :: putStmts f.ploop [] else putStmts f.ploop [])
  config : LinesOk false f.configText (putFields f.config [])
  methods : LinesOk false f.methodsText (putDecls f.methods [])

theorem item_list (l : List Param) (t : Param → Str) (k : Param → List Go.Tok) (h : ∀ p ∈ l, Item false (t p) (k p)) :
    Item false (join g!", " (l.map t)) (sepToks g!"," (l.map k)) := by
  have := item_join false g!", " g!"," (sep_comma false) (l.map fun p => (t p, k p)) (by
    intro x hx
    simp only [List.mem_map] at hx
    obtain ⟨p, hp, rfl⟩ := hx
    exact h p hp) (by simp)
  simpa [List.map_map, Function.comp_def] using this

theorem item_list' (sep o : Str) (hs : Separates true sep o) (l : List Param) (t : Param → Str) (k : Param → List Go.Tok)
    (h : ∀ p ∈ l, Item true (t p) (k p)) (hne : l ≠ []) :
    Item true (join sep (l.map t)) (sepToks o (l.map k)) := by
  have := item_join true sep o hs (l.map fun p => (t p, k p)) (by
    intro x hx
    simp only [List.mem_map] at hx
    obtain ⟨p, hp, rfl⟩ := hx
    exact h p hp) (by simpa using hne)
  simpa [List.map_map, Function.comp_def] using this

/-- `}` after a list. -/
theorem item_brace (pre t : Str) (a k : List Go.Tok) (b : Bool) (hp : ∀ sm ts, State.run ⟨.start, sm, ts⟩ pre = ⟨.start, false, a.reverse ++ ts⟩)
    (h : Item b t k) : Item true (pre ++ t ++ g!"}") (a ++ (k ++ [.op g!"}"])) := by
  intro sm ts
  rw [List.append_assoc, State.run_append, State.run_append, hp]
  obtain ⟨h1, h2, _⟩ := h false (a.reverse ++ ts)
  have : ∀ r : State, r.Resting → r.run g!"}" = ⟨.start, true, .op g!"}" :: r.flush.toks⟩ := by
    intro r h
    show State.step r '}' = _
    rw [resting_step r h '}' (by decide)]
    have := resting_flush r h
    generalize r.flush = r' at this
    obtain ⟨m, s, t⟩ := r'
    cases this
    rfl
  rw [this _ h1, h2]
  exact ⟨.inl rfl, by simp [State.flush], by simp [State.flush]⟩

theorem item_map (l : List Param) (h : ParamsGood l) :
    Item true (g!"map[string]interface{}{\n" ++ join g!",\n " (l.map fun p => g!"\"" ++ p.name ++ g!"\": " ++ p.name) ++ g!"}")
      (putExprs [mapExpr l] []) := by
  have e : putExprs [mapExpr l] [] = (mapType.put [.op g!"{"]) ++
      (sepToks g!"," (l.map fun p => [.str p.name, .op g!":", .word p.name]) ++ [.op g!"}"]) := by
    show mapType.put [] ++ .op g!"{" :: putExprs (l.map fun p => Go.Expr.pair (.str p.name) (.id p.name)) [.op g!"}"] = _
    rw [commas_pairs]
    rfl
  rw [e]
  refine item_brace _ _ _ _ false (fun sm ts => by rfl) ?_
  have := item_join false g!",\n " g!"," (sep_commaLine false)
    (l.map fun p => (g!"\"" ++ p.name ++ g!"\": " ++ p.name, [.str p.name, .op g!":", .word p.name])) (by
    intro x hx
    simp only [List.mem_map] at hx
    obtain ⟨p, hp, rfl⟩ := hx
    exact (item_pair p.name (h p hp).1).weaken false) (by simp)
  simpa [List.map_map, Function.comp_def] using this

theorem item_struct (l : List Param) (h : ParamsGood l) :
    Item true (g!"struct{\n" ++ join g!"\n " (l.map fun r => r.name ++ g!" " ++ r.type) ++ g!"}") ((resultsStructType l).put []) := by
  have e : (resultsStructType l).put [] = [.word g!"struct", .op g!"{"] ++ (putStruct (paramDecls l) [] ++ [.op g!"}"]) := by
    show _ :: _ :: putStruct (paramDecls l) [_] = _
    rw [putStruct_append]
    rfl
  rw [e, lines_fields]
  cases l with
  | nil => exact fun sm ts => ⟨.inl rfl, rfl, fun _ => rfl⟩
  | cons p l =>
    exact item_brace _ _ _ _ true (fun sm ts => by rfl)
      (item_list' _ _ sep_line _ _ _ (fun p hp => item_param p.name p.type (h p hp).1 (h p hp).2) (by simp))

theorem _root_.Gowrap.Go.Item.law {b : Bool} {t : Str} {k : List Go.Tok} (h : Item b t k) (sm : Bool) (ts : List Go.Tok) (sem : Option Bool)
    (hs : sem = none ∨ (sem = some true ∧ b = true)) :
    let r := State.run ⟨.start, sm, ts⟩ t
    (r.mode = .start ∨ (∃ acc, r.mode = .word acc) ∨ r.mode = .op g!"...") ∧ r.flush.toks = k.reverse ++ ts ∧
      (∀ b, sem = some b → r.flush.semi = b) ∧ (false = true → r.mode = .start) := by
  obtain ⟨h1, h2, h3⟩ := h sm ts
  refine ⟨h1, h2, ?_, fun h => by cases h⟩
  intro c hc
  rcases hs with hs | ⟨hs, hb⟩
  · rw [hs] at hc; cases hc
  · rw [hs] at hc; cases hc; exact h3 hb

theorem LinesOk.law {need : Bool} {text : Str} {toks : List Go.Tok} (h : LinesOk need text toks) (sm : Bool) (hsm : sm = need)
    (ts : List Go.Tok) :
    let r := State.run ⟨.start, sm, ts⟩ text
    (r.mode = .start ∨ (∃ acc, r.mode = .word acc) ∨ r.mode = .op g!"...") ∧ r.flush.toks = toks.reverse ++ ts ∧
      (∀ b, some false = some b → r.flush.semi = b) ∧ (true = true → r.mode = .start) := by
  subst hsm
  rw [h ts]
  exact ⟨.inl rfl, rfl, fun b hb => Option.some.inj hb, fun _ => rfl⟩

theorem hasResults_iff (m : Method) : m.hasResults = true ↔ m.results ≠ [] := by
  unfold Method.hasResults
  cases m.results <;> simp

/-- The substitution is as the symbolic lexer assumes. -/
theorem Fill.Good.ok {f : Fill} (h : f.Good) : f.sub.Ok := by
  refine ⟨?_, ?_, ?_, ?_, ?_, ?_, ?_⟩
  · intro x hx
    cases x <;> first | (cases hx; done) | skip
    · exact h.name
    · exact h.dec
    · exact h.option
    · exact h.method
    · exact h.param
  · intro x hx
    cases x <;> first | (cases hx; done) | skip
    exact h.down
  · intro x hx
    cases x <;> first | (cases hx; done) | skip
    · exact h.component
    · exact h.metric
    · exact h.span
    · exact h.snake
  · intro x hx ts sm hn
    cases x <;> first | (cases hx; done) | skip
    · exact h.type.item.law sm ts _ (.inr ⟨rfl, rfl⟩)
    · exact (commas_params f.m.params ▸ item_list f.m.params _ _ (fun p hp =>
        (item_param p.name p.type (h.params p hp).1 (h.params p hp).2).weaken false) :
        Item false _ (putGroups (paramDecls f.m.params) [])).law sm ts _ (.inl rfl)
    · exact (commas_params f.m.results ▸ item_list f.m.results _ _ (fun p hp =>
        (item_param p.name p.type (h.results p hp).1 (h.results p hp).2).weaken false) :
        Item false _ (putGroups (paramDecls f.m.results) [])).law sm ts _ (.inl rfl)
    · exact (commas_args f.m.params ▸ item_list f.m.params _ _ (fun p hp => item_pass p (h.params p hp).1) :
        Item false _ (putExprs (f.m.params.map argExpr) [])).law sm ts _ (.inl rfl)
    · exact (commas_names f.m.params ▸ item_list f.m.params _ _ (fun p hp =>
        (Item.name p.name (h.params p hp).1).weaken false) : Item false _ (putExprs f.pnames [])).law sm ts _ (.inl rfl)
    · exact (commas_names f.m.results ▸ item_list f.m.results _ _ (fun p hp =>
        (Item.name p.name (h.results p hp).1).weaken false) : Item false _ (putExprs f.rnames [])).law sm ts _ (.inl rfl)
    · exact (item_map f.m.params h.params).law sm ts _ (.inr ⟨rfl, rfl⟩)
    · exact (item_map f.m.results h.results).law sm ts _ (.inr ⟨rfl, rfl⟩)
    · exact (item_struct f.m.results h.results).law sm ts _ (.inr ⟨rfl, rfl⟩)
    · cases hr : f.m.hasResults with
      | false =>
        have : f.hsemi .resFields = none := by simp [Fill.hsemi, hr]
        exact (commas_fields f.m.results ▸ item_list f.m.results _ _ (fun p hp =>
          (item_resField p.name (h.results p hp).1).weaken false) : Item false _ (putExprs f.resFields [])).law sm ts _ (.inl this)
      | true =>
        have : f.hsemi .resFields = some true := by simp [Fill.hsemi, hr]
        exact (commas_fields f.m.results ▸ item_list' _ _ (sep_comma true) f.m.results _ _ (fun p hp =>
          item_resField p.name (h.results p hp).1) ((hasResults_iff _).mp hr) :
          Item true _ (putExprs f.resFields [])).law sm ts _ (.inr ⟨this, rfl⟩)
    · exact h.ploop.law sm (hn _ rfl) ts
    · exact h.config.law sm (hn _ rfl) ts
    · exact h.methods.law sm (hn _ rfl) ts
  · intro x hx
    cases x <;> first | (cases hx; done) | skip
    · exact h.typeLead
    · exact ⟨'m', _, rfl, by decide⟩
    · exact ⟨'m', _, rfl, by decide⟩
    · exact ⟨'s', _, rfl, by decide⟩
    · have hne : f.m.results ≠ [] := (hasResults_iff _).mp hx
      show ∃ c r, join g!", " (f.m.results.map fun r => g!"_res" ++ g!"." ++ r.name) = c :: r ∧ _
      cases hr : f.m.results with
      | nil => exact absurd hr hne
      | cons p l => cases l with
        | nil => exact ⟨'_', _, rfl, by decide⟩
        | cons q l => exact ⟨'_', _, rfl, by decide⟩
  · intro x hx
    have : ∀ y, f.hlead y = true → f.htext y ≠ [] := by
      intro y hy
      cases y <;> first | (cases hy; done) | skip
      · obtain ⟨c, r, h, _⟩ := h.typeLead
        simp [Fill.htext, h]
      · simp [Fill.htext, Method.paramsMap]
      · simp [Fill.htext, Method.resultsMap]
      · simp [Fill.htext, Method.resultsStruct]
      · have hne : f.m.results ≠ [] := (hasResults_iff _).mp hy
        show join g!", " (f.m.results.map fun r => g!"_res" ++ g!"." ++ r.name) ≠ []
        cases hr : f.m.results with
        | nil => exact absurd hr hne
        | cons p l => cases l <;> simp [join]
    exact this x hx
  · intro x hx
    cases x <;> first | (cases hx; done) | skip
    exact h.typeInert

end Gowrap.Tmpl
