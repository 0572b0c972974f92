import Verif.Props.Helpers
import Verif.Spec.FlatTemplate
/-!
# C95: what templates without control structures print
-/

namespace Gowrap.Props

open Gowrap Tmpl Flat

/-! ## Lexing -/

theorem plain_tail {c : Char} {t : Str} (h : Plain (c :: t)) : Plain t := by
  intro hi
  exact h (hi.trans (List.suffix_cons c _).isInfix)

theorem plain_brace {t : Str} (h : Plain ('{' :: t)) : ∃ d s, t = d :: s ∧ d ≠ '{' := by
  cases t with
  | nil => exact absurd (List.infix_refl _) h
  | cons d s =>
    refine ⟨d, s, rfl, fun e => h ?_⟩
    subst e
    exact ⟨[], s ++ g!"{", rfl⟩

theorem text_run (toks : List Tok) : ∀ (n : Nat) (t acc : Str), t.length ≤ n → Plain t →
    t.foldl Lex.step ⟨.text acc, toks⟩ = ⟨.text (t.reverse ++ acc), toks⟩
  | _, [], _, _, _ => rfl
  | 0, _ :: _, _, hl, _ => by simp at hl
  | n + 1, c :: t, acc, hl, h => by
    simp only [List.length_cons] at hl
    by_cases hc : c = '{'
    · subst hc
      obtain ⟨d, s, rfl, hd⟩ := plain_brace h
      have e1 : Lex.step ⟨.text acc, toks⟩ '{' = ⟨.brace acc, toks⟩ := rfl
      have e2 : Lex.step ⟨.brace acc, toks⟩ d = ⟨.text (d :: '{' :: acc), toks⟩ := by
        simp only [Lex.step]; rw [if_neg hd]
      rw [List.foldl_cons, e1, List.foldl_cons, e2,
        text_run toks n s _ (by simp only [List.length_cons] at hl; omega) (plain_tail (plain_tail h))]
      simp
    · have e1 : Lex.step ⟨.text acc, toks⟩ c = ⟨.text (c :: acc), toks⟩ := by
        simp only [Lex.step]; rw [if_neg hc]
      rw [List.foldl_cons, e1, text_run toks n t _ (by omega) (plain_tail h)]
      simp

theorem space_iff (c : Char) : space c = true ↔ c ∈ [' ', '\t', '\r', '\n'] := by
  simp [space, or_assoc]

theorem dropWhile_front (s : Str) : s.dropWhile space = dropFront s := by
  induction s with
  | nil => rfl
  | cons c s ih =>
    unfold dropFront
    by_cases h : space c = true
    · rw [List.dropWhile_cons_of_pos h, if_pos ((space_iff c).1 h), ih]
    · rw [List.dropWhile_cons_of_neg h, if_neg (fun hm => h ((space_iff c).2 hm))]

/-- The states in which `acc` has been read since the last action. -/
def AtText (acc : Str) (toks : List Tok) (l : Lex) : Prop := l = ⟨.text acc, toks⟩ ∨ (acc = [] ∧ l = ⟨.trimmed, toks⟩)

theorem trimmed_run (toks : List Tok) : ∀ (t : Str), Plain t →
    AtText (dropFront t).reverse toks (t.foldl Lex.step ⟨.trimmed, toks⟩)
  | [], _ => .inr ⟨rfl, rfl⟩
  | c :: t, h => by
    unfold dropFront
    by_cases hs : space c = true
    · rw [if_pos ((space_iff c).1 hs), List.foldl_cons]
      have e : Lex.step ⟨.trimmed, toks⟩ c = ⟨.trimmed, toks⟩ := by simp only [Lex.step]; rw [if_pos hs]
      rw [e]
      exact trimmed_run toks t (plain_tail h)
    · rw [if_neg (fun hm => hs ((space_iff c).2 hm)), List.foldl_cons]
      have e : Lex.step ⟨.trimmed, toks⟩ c = Lex.step ⟨.text [], toks⟩ c := by simp only [Lex.step]; rw [if_neg hs]
      rw [e, ← List.foldl_cons]
      exact .inl (by rw [text_run toks (c :: t).length (c :: t) [] (Nat.le_refl _) h]; simp)

/-- The items that an action gives. -/
def toksOf : Action → List Tok
  | .comment _ => []
  | .name => [.left, .field g!"Interface", .field g!"Name", .right]
  | .var x => [.left, .field g!"Vars", .field x, .right]

theorem comment_run (toks : List Tok) : ∀ (c : Str), ¬ g!"*/" <:+: c →
    (c.foldl Lex.step ⟨.comment, toks⟩ = ⟨.comment, toks⟩ ∨ c.foldl Lex.step ⟨.comment, toks⟩ = ⟨.star, toks⟩) ∧
    (c.head? ≠ some '/' →
      (c.foldl Lex.step ⟨.star, toks⟩ = ⟨.comment, toks⟩ ∨ c.foldl Lex.step ⟨.star, toks⟩ = ⟨.star, toks⟩))
  | [], _ => ⟨.inl rfl, fun _ => .inr rfl⟩
  | d :: c, h => by
    have ht : ¬ g!"*/" <:+: c := fun hi => h (hi.trans (List.suffix_cons d _).isInfix)
    obtain ⟨h1, h2⟩ := comment_run toks c ht
    have key : d = '*' → c.head? ≠ some '/' := by
      intro hd hh
      subst hd
      cases c with
      | nil => simp at hh
      | cons e c =>
        simp only [List.head?_cons, Option.some.injEq] at hh
        subst hh
        exact h ⟨[], c, rfl⟩
    constructor
    · rw [List.foldl_cons]
      by_cases hd : d = '*'
      · have e : Lex.step ⟨.comment, toks⟩ d = ⟨.star, toks⟩ := by simp only [Lex.step]; rw [if_pos hd]
        rw [e]
        exact h2 (key hd)
      · have e : Lex.step ⟨.comment, toks⟩ d = ⟨.comment, toks⟩ := by simp only [Lex.step]; rw [if_neg hd]
        rw [e]
        exact h1
    · intro hh
      have hs : d ≠ '/' := by simpa using hh
      rw [List.foldl_cons]
      by_cases hd : d = '*'
      · have e : Lex.step ⟨.star, toks⟩ d = ⟨.star, toks⟩ := by simp only [Lex.step]; rw [if_neg hs, if_pos hd]
        rw [e]
        exact h2 (key hd)
      · have e : Lex.step ⟨.star, toks⟩ d = ⟨.comment, toks⟩ := by simp only [Lex.step]; rw [if_neg hs, if_neg hd]
        rw [e]
        exact h1

theorem field_run (toks : List Tok) : ∀ (x acc : Str), (∀ c ∈ x, c.isAlphanum = true ∨ c = '_') →
    (acc = [] → ∀ c, x.head? = some c → c.isDigit = false) →
    x.foldl Lex.step ⟨.field acc, toks⟩ = ⟨.field (x.reverse ++ acc), toks⟩
  | [], _, _, _ => rfl
  | c :: x, acc, h, hd => by
    have hw : wordChar c = true := by simpa [wordChar] using h c (by simp)
    have hn : ¬ (decide (acc = []) && c.isDigit) = true := by
      intro hx
      rw [Bool.and_eq_true, decide_eq_true_eq] at hx
      rw [hd hx.1 c rfl] at hx
      exact absurd hx.2 (by decide)
    have e : Lex.step ⟨.field acc, toks⟩ c = ⟨.field (c :: acc), toks⟩ := by simp only [Lex.step]; rw [if_neg hn, if_pos hw]
    rw [List.foldl_cons, e, field_run toks x _ (fun d hd => h d (by simp [hd])) (fun h => by cases h)]
    simp

/-- The state after an action. -/
def afterItem (right : Bool) (toks : List Tok) : Lex := if right then ⟨.trimmed, toks⟩ else ⟨.text [], toks⟩

theorem field_end (acc : Str) (ha : acc ≠ []) (toks : List Tok) (right : Bool) :
    ((if right then g!" -" else []) ++ g!"}}").foldl Lex.step ⟨.field acc, toks⟩ =
      afterItem right (.right :: .field acc.reverse :: toks) := by
  cases right with
  | false =>
    show Lex.step (Lex.step ⟨.field acc, toks⟩ '}') '}' = _
    have e : Lex.step ⟨.field acc, toks⟩ '}' = ⟨.closing, .field acc.reverse :: toks⟩ := by
      simp only [Lex.step]
      rw [if_neg (by simp [ha]), if_neg (by decide), if_neg ha]
      rfl
    rw [e]
    rfl
  | true =>
    show [' ', '-', '}', '}'].foldl Lex.step ⟨.field acc, toks⟩ = _
    have e : Lex.step ⟨.field acc, toks⟩ ' ' = ⟨.spaces, .field acc.reverse :: toks⟩ := by
      simp only [Lex.step]
      rw [if_neg (by simp [ha]), if_neg (by decide), if_neg ha]
      rfl
    rw [List.foldl_cons, e]
    rfl

/-- The text before an action, in reverse, as the action leaves it. -/
def leftOf (left : Bool) (acc : Str) : Str := if left then acc.dropWhile space else acc

theorem body_run (a : Action) (ha : a.Ok) (left right : Bool) (acc : Str) (toks : List Tok) :
    (g!"{{" ++ ((if left then g!"- " else []) ++ (a.source ++ ((if right then g!" -" else []) ++ g!"}}")))).foldl Lex.step ⟨.text acc, toks⟩ =
      afterItem right ((toksOf a).reverse ++ pushText (leftOf left acc) toks) := by
  have e0 : g!"{{".foldl Lex.step ⟨.text acc, toks⟩ = ⟨.opened acc, toks⟩ := rfl
  rw [List.foldl_append, e0, List.foldl_append]
  cases a with
  | comment c =>
    have e1 : (Action.comment c).source = '/' :: '*' :: (c ++ g!"*/") := rfl
    have e2 : ∀ tail : Str, (((if left then g!"- " else []) : Str).foldl Lex.step ⟨.opened acc, toks⟩ |> fun l => ('/' :: '*' :: tail).foldl Lex.step l) =
        tail.foldl Lex.step ⟨.comment, pushText (leftOf left acc) toks⟩ := by
      intro tail
      cases left <;> rfl
    rw [e1, List.cons_append, List.cons_append]
    have := e2 (c ++ g!"*/" ++ ((if right then g!" -" else []) ++ g!"}}"))
    dsimp only at this
    rw [this, List.append_assoc, List.foldl_append]
    have e3 : ∀ l : Lex, (l = ⟨.comment, pushText (leftOf left acc) toks⟩ ∨ l = ⟨.star, pushText (leftOf left acc) toks⟩) →
        (g!"*/" ++ ((if right then g!" -" else []) ++ g!"}}")).foldl Lex.step l = afterItem right (pushText (leftOf left acc) toks) := by
      intro l hl
      rcases hl with rfl | rfl <;> cases right <;> rfl
    exact e3 _ (comment_run _ c ha).1
  | name =>
    have e2 : ∀ tail : Str, (((if left then g!"- " else []) : Str).foldl Lex.step ⟨.opened acc, toks⟩ |> fun l => (g!".Interface.Name" ++ tail).foldl Lex.step l) =
        tail.foldl Lex.step ⟨.field g!"Name".reverse, .field g!"Interface" :: .left :: pushText (leftOf left acc) toks⟩ := by
      intro tail
      cases left <;> rfl
    have := e2 ((if right then g!" -" else []) ++ g!"}}")
    dsimp only at this
    show ((g!".Interface.Name" ++ _).foldl Lex.step _) = _
    rw [this, field_end _ (by decide)]
    rfl
  | var x =>
    have e2 : ∀ tail : Str, (((if left then g!"- " else []) : Str).foldl Lex.step ⟨.opened acc, toks⟩ |> fun l => (g!".Vars." ++ tail).foldl Lex.step l) =
        tail.foldl Lex.step ⟨.field [], .field g!"Vars" :: .left :: pushText (leftOf left acc) toks⟩ := by
      intro tail
      cases left <;> rfl
    have := e2 (x ++ ((if right then g!" -" else []) ++ g!"}}"))
    dsimp only at this
    show ((g!".Vars." ++ x ++ _).foldl Lex.step _) = _
    rw [List.append_assoc, this, List.foldl_append, field_run _ x [] ha.2.1 (fun _ => ha.2.2), field_end _ (by simpa using ha.1)]
    simp [toksOf]

theorem item_run {i : Item} (hi : i.action.Ok) {acc : Str} {toks : List Tok} {l : Lex} (hl : AtText acc toks l) :
    i.source.foldl Lex.step l = afterItem i.right ((toksOf i.action).reverse ++ pushText (leftOf i.left acc) toks) := by
  rcases hl with rfl | ⟨rfl, rfl⟩
  · exact body_run _ hi _ _ _ _
  · rw [← body_run _ hi i.left i.right [] toks]
    rfl

theorem after_run (right : Bool) (toks : List Tok) (t : Str) (ht : Plain t) :
    AtText (if right then dropFront t else t).reverse toks (t.foldl Lex.step (afterItem right toks)) := by
  cases right with
  | true => exact trimmed_run toks t ht
  | false =>
    refine .inl ?_
    show t.foldl Lex.step ⟨.text [], toks⟩ = _
    rw [text_run toks t.length t [] (Nat.le_refl _) ht]
    simp

/-- The items of a template. -/
def flatToks : Bool → Str → List (Item × Str) → List Tok
  | cut, t, [] => (pushText (if cut then dropFront t else t).reverse []).reverse
  | cut, t, (i, t') :: rest =>
    (pushText (leftOf i.left (if cut then dropFront t else t).reverse) []).reverse ++ (toksOf i.action ++ flatToks i.right t' rest)

/-- The end of `lex`. -/
def lexEnd (l : Lex) : Option (List Tok) :=
  match l.mode with
  | .text acc => some (pushText acc l.toks).reverse
  | .brace acc => some (pushText ('{' :: acc) l.toks).reverse
  | .trimmed => some l.toks.reverse
  | _ => none

theorem pushText_append (acc : Str) (toks : List Tok) : pushText acc toks = pushText acc [] ++ toks := by
  unfold pushText
  split <;> rfl

theorem flat_run : ∀ (rest : List (Item × Str)) (cut : Bool) (t : Str) (toks : List Tok), Plain t →
    (∀ p ∈ rest, p.1.action.Ok ∧ Plain p.2) →
    lexEnd ((t ++ rest.flatMap fun p => p.1.source ++ p.2).foldl Lex.step (afterItem cut toks)) =
      some (toks.reverse ++ flatToks cut t rest)
  | [], cut, t, toks, ht, _ => by
    have h := after_run cut toks t ht
    simp only [List.flatMap_nil, List.append_nil, flatToks]
    revert h
    generalize t.foldl Lex.step (afterItem cut toks) = l
    intro h
    rcases h with rfl | ⟨h0, rfl⟩
    · simp only [lexEnd]
      rw [pushText_append]
      simp
    · rw [h0]
      simp [lexEnd, pushText]
  | (i, t') :: rest, cut, t, toks, ht, hr => by
    obtain ⟨hi, ht'⟩ := hr (i, t') (by simp)
    rw [List.flatMap_cons, List.foldl_append, List.append_assoc, List.foldl_append, item_run hi (after_run cut toks t ht),
      flat_run rest i.right t' _ ht' (fun p hp => hr p (by simp [hp]))]
    rw [pushText_append]
    simp [flatToks]

theorem lex_flat (t : Template) (h : t.Ok) : lex t.source = some (flatToks false t.first t.rest) := by
  have := flat_run t.rest false t.first [] h.1 h.2
  simp only [List.reverse_nil, List.nil_append] at this
  exact this

/-! ## Parsing -/

/-- The node of an action. -/
def nodesOf : Action → List Node
  | .comment _ => []
  | .name => [.print [.dot [g!"Interface", g!"Name"]]]
  | .var x => [.print [.dot [g!"Vars", x]]]

/-- The node of a text. -/
def textNodes (s : Str) : List Node := if s = [] then [] else [.text s]

def flatNodes : Bool → Str → List (Item × Str) → List Node
  | cut, t, [] => textNodes (if cut then dropFront t else t)
  | cut, t, (i, t') :: rest =>
    textNodes (if i.left then dropBack (if cut then dropFront t else t) else if cut then dropFront t else t) ++
      (nodesOf i.action ++ flatNodes i.right t' rest)

/-- The nodes in front are parsed, whatever follows. -/
def Parses (toks : List Tok) (ns : List Node) : Prop := ∀ (rest : List Tok) (ms : List Node),
  (∀ n, rest.length < n → parseNodes n rest = some (ms, .eof, [])) →
  ∀ n, (toks ++ rest).length < n → parseNodes n (toks ++ rest) = some (ns ++ ms, .eof, [])

theorem Parses.append {a b : List Tok} {m n : List Node} (h1 : Parses a m) (h2 : Parses b n) : Parses (a ++ b) (m ++ n) := by
  intro rest ms hr k hk
  rw [List.append_assoc] at hk ⊢
  rw [List.append_assoc]
  exact h1 (b ++ rest) (n ++ ms) (h2 rest ms hr) k hk

theorem parses_nil : Parses [] [] := fun _ _ h n hn => h n hn

theorem parses_text (s : Str) : Parses (pushText s.reverse []).reverse (textNodes s) := by
  unfold pushText textNodes
  by_cases hs : s = []
  · subst hs
    exact parses_nil
  · rw [if_neg (by simpa using hs), if_neg hs]
    intro rest ms hr n hn
    simp only [List.reverse_reverse, List.reverse_cons, List.reverse_nil, List.nil_append, List.cons_append] at hn ⊢
    obtain ⟨n, rfl⟩ : ∃ k, n = k + 1 := ⟨n - 1, by simp at hn; omega⟩
    simp only [parseNodes]
    rw [hr n (by simp at hn; omega)]
    rfl

theorem parses_fields (f g : Str) : Parses [.left, .field f, .field g, .right] [.print [.dot [f, g]]] := by
  intro rest ms hr n hn
  obtain ⟨n, rfl⟩ : ∃ k, n = k + 1 := ⟨n - 1, by simp at hn; omega⟩
  have hc : parseCmd (.field f :: .field g :: .right :: rest) = some ([.dot [f, g]], rest) := by
    unfold parseCmd
    obtain ⟨k, hk⟩ : ∃ k, (Tok.field f :: Tok.field g :: Tok.right :: rest).length = k + 2 :=
      ⟨rest.length + 1, by simp⟩
    rw [hk]
    rfl
  have hs : skipSpace (.field f :: .field g :: .right :: rest) = .field f :: .field g :: .right :: rest := rfl
  simp only [List.cons_append, List.nil_append, parseNodes, hs, hc]
  show (parseNodes n rest).bind _ = _
  rw [hr n (by simp at hn; omega)]
  rfl

theorem parses_action (a : Action) : Parses (toksOf a) (nodesOf a) := by
  cases a with
  | comment c => exact parses_nil
  | name => exact parses_fields _ _
  | var x => exact parses_fields _ _

theorem leftOf_reverse (left : Bool) (s : Str) : leftOf left s.reverse = (if left then dropBack s else s).reverse := by
  cases left with
  | false => rfl
  | true => simp [leftOf, dropBack, dropWhile_front]

theorem parses_flat : ∀ (rest : List (Item × Str)) (cut : Bool) (t : Str), Parses (flatToks cut t rest) (flatNodes cut t rest)
  | [], cut, t => parses_text _
  | (i, t') :: rest, cut, t => by
    unfold flatToks flatNodes
    rw [leftOf_reverse]
    exact (parses_text _).append ((parses_action _).append (parses_flat rest _ _))

/-- Only texts and fields of the data are printed. -/
def FlatNode : Node → Prop
  | .text _ => True
  | .print [.dot _] => True
  | _ => False

theorem flatNodes_flat : ∀ (rest : List (Item × Str)) (cut : Bool) (t : Str), ∀ n ∈ flatNodes cut t rest, FlatNode n := by
  have ht : ∀ s, ∀ n ∈ textNodes s, FlatNode n := by
    intro s n hn
    unfold textNodes at hn
    split at hn
    · simp at hn
    · simp at hn; subst hn; trivial
  intro rest
  induction rest with
  | nil => intro cut t; exact ht _
  | cons p rest ih =>
    obtain ⟨i, t'⟩ := p
    intro cut t n hn
    unfold flatNodes at hn
    rcases List.mem_append.1 hn with h | h
    · exact ht _ n h
    · rcases List.mem_append.1 h with h | h
      · cases ha : i.action <;> rw [ha] at h <;> simp [nodesOf] at h <;> subst h <;> trivial
      · exact ih _ _ n h

theorem nodesScoped_flat (vars : List Str) : ∀ ns : List Node, (∀ n ∈ ns, FlatNode n) → nodesScoped vars ns = some vars
  | [], _ => rfl
  | n :: ns, h => by
    have hn := h n (by simp)
    have : n.scoped vars = some vars := by
      unfold FlatNode at hn
      split at hn
      · rfl
      · simp [Node.scoped, argsScoped, Arg.scoped]
      · exact absurd hn (by trivial)
    simp only [nodesScoped, this]
    exact nodesScoped_flat vars ns fun m hm => h m (by simp [hm])

theorem parse_flat (t : Template) (h : t.Ok) : parse t.source = some (flatNodes false t.first t.rest) := by
  have hp := parses_flat t.rest false t.first [] [] (fun n hn => by
    obtain ⟨n, rfl⟩ : ∃ k, n = k + 1 := ⟨n - 1, by simp at hn; omega⟩
    rfl)
  simp only [List.append_nil] at hp
  unfold parse
  rw [lex_flat t h]
  show (parseNodes _ _).bind _ = _
  rw [hp _ (Nat.lt_succ_self _)]
  show (if (nodesScoped [[]] (flatNodes false t.first t.rest)).isSome then _ else none) = _
  rw [nodesScoped_flat [[]] _ (flatNodes_flat _ _ _)]
  rfl

/-! ## Execution -/

theorem execNodes_append_flat (u : Uni) (sc : Scope) (ms : List Node) : ∀ (ns : List Node) (w : Str), (∀ n ∈ ns, FlatNode n) →
    execNodes u sc (ns ++ ms) w = (execNodes u sc ns w).bind fun w => execNodes u sc ms w
  | [], w, _ => rfl
  | n :: ns, w, h => by
    have hn := h n (by simp)
    have ih := fun w => execNodes_append_flat u sc ms ns w fun m hm => h m (by simp [hm])
    unfold FlatNode at hn
    split at hn
    · simp [execNodes, execNode, ih]
    · rename_i fs
      simp only [List.cons_append, execNodes, execNode]
      cases evalCmd u sc [.dot fs] with
      | none => rfl
      | some v =>
        cases hv : v.print with
        | none => simp [hv]
        | some s => simp [hv, ih]
    · exact absurd hn (by trivial)

theorem execNodes_text (u : Uni) (sc : Scope) (s w : Str) : execNodes u sc (textNodes s) w = some (w ++ s) := by
  unfold textNodes
  split
  · rename_i h; subst h; simp [execNodes]
  · simp [execNodes, execNode]

theorem execNodes_action (u : Uni) (d : Inputs) (a : Action) (w : Str) :
    execNodes u ⟨[([], d.value)], d.value⟩ (nodesOf a) w = some (w ++ a.output d.name d.vars) := by
  cases a with
  | comment c => simp [nodesOf, execNodes, Action.output]
  | name =>
    have e : d.value.chain [g!"Interface", g!"Name"] [] = some (.str d.name) := rfl
    simp [nodesOf, execNodes, execNode, evalCmd, evalArgs, e, TVal.print, Action.output]
  | var x =>
    have e : d.value.chain [g!"Vars", x] [] = some (ofVar (d.vars x)) := by
      have e1 : d.value.access g!"Vars" [] = some (.vars d.vars) := rfl
      simp [TVal.chain, e1]
      rfl
    have e2 : (ofVar (d.vars x)).print = some ((Action.var x).output d.name d.vars) := by
      dsimp only [Action.output]
      cases d.vars x with
      | none => rfl
      | some v => cases v <;> rfl
    simp [nodesOf, execNodes, execNode, evalCmd, evalArgs, e, e2]

theorem execNodes_flat (u : Uni) (d : Inputs) : ∀ (rest : List (Item × Str)) (cut : Bool) (t w : Str),
    execNodes u ⟨[([], d.value)], d.value⟩ (flatNodes cut t rest) w = some (w ++ outputFrom d.name d.vars cut t rest)
  | [], cut, t, w => execNodes_text _ _ _ _
  | (i, t') :: rest, cut, t, w => by
    have hf := flatNodes_flat ((i, t') :: rest) cut t
    unfold flatNodes at hf ⊢
    rw [execNodes_append_flat _ _ _ _ _ (fun n hn => hf n (by simp [hn])), execNodes_text, Option.bind_some,
      execNodes_append_flat _ _ _ _ _ (fun n hn => hf n (by simp [hn])), execNodes_action, Option.bind_some, execNodes_flat u d rest]
    simp [outputFrom]

/-- **C95** Every template of texts, comments, `{{.Interface.Name}}` and `{{.Vars.x}}`, each with or without trim markers
on either side, is accepted and prints: the texts as they are, except that blanks next to a trim marker are left out;
nothing for comments; the name; the values of the variables, `true` for a flag without a value and `<no value>` for a
variable that was not given. -/
theorem C95_flat (u : Uni) (d : Inputs) (t : Template) (h : t.Ok) :
    render u t.source d = some (t.output d.name d.vars) := by
  unfold render
  rw [parse_flat t h]
  show execNodes _ _ _ _ = _
  rw [execNodes_flat]
  rfl

/-- C95. In particular a template without `{{`, and without `{` at its end, is printed as it is. -/
theorem C95_text (u : Uni) (d : Inputs) (s : Str) (h : Plain s) : render u s d = some s := by
  have := C95_flat u d ⟨s, []⟩ ⟨h, by simp⟩
  simpa [Template.source, Template.output, outputFrom] using this

namespace Demo95

/-- A template with a comment, a trimmed name and a variable. -/
def template : Template :=
  ⟨g!"type {\n  ", [(⟨.comment g!" the * name ", false, false⟩, g!""), (⟨.name, true, true⟩, g!"\n\t Base}"), (⟨.var g!"p_1", false, false⟩, g!" { }")]⟩

example : template.source = g!"type {\n  {{/* the * name */}}{{- .Interface.Name -}}\n\t Base}{{.Vars.p_1}} { }" := by decide +kernel

theorem noInfix {c d : Char} : ∀ {s : Str}, (∀ p ∈ s.zip s.tail, p ≠ (c, d)) → ¬ [c, d] <:+: s := by
  rintro s h ⟨a, b, rfl⟩
  apply h (c, d) _ rfl
  clear h
  induction a with
  | nil => simp
  | cons x a ih =>
    cases a with
    | nil => simp
    | cons y a => exact List.mem_cons_of_mem _ ih

example : template.Ok := by
  refine ⟨noInfix (by decide), fun p hp => ?_⟩
  simp only [template, List.mem_cons, List.not_mem_nil, or_false] at hp
  rcases hp with rfl | rfl | rfl
  · exact ⟨noInfix (by decide), noInfix (by decide)⟩
  · exact ⟨trivial, noInfix (by decide)⟩
  · exact ⟨⟨by decide, by decide⟩, noInfix (by decide)⟩

example : template.output g!"Reader" (fun _ => none) = g!"type {\n  ReaderBase}<no value> { }" := by decide +kernel
example : render Uni.ascii template.source Demo93.reader = some g!"type {\n  ReaderBase}<no value> { }" := by decide +kernel

end Demo95

end Gowrap.Props
