import Verif.Props.TemplateLang
import Verif.Spec.NestedTemplate
import Verif.Proofs.TmplExec
import Verif.Proofs.Usage
/-!
# C96: what templates with control structures print
-/

namespace Gowrap.Props

open Gowrap Tmpl Flat Nested

/-! ## Lexing -/

theorem closeText (acc : Str) (toks : List Tok) {c : Char} (hc : c ≠ '-') (k : Str) :
    ('{' :: '{' :: c :: k).foldl Lex.step ⟨.text acc, toks⟩ = ('{' :: '{' :: c :: k).foldl Lex.step ⟨.text [], pushText acc toks⟩ := by
  simp only [List.foldl_cons]
  have e : ∀ (a : Str) (ts : List Tok), Lex.step (Lex.step ⟨.text a, ts⟩ '{') '{' = ⟨.opened a, ts⟩ := fun _ _ => rfl
  rw [e, e]
  have e2 : Lex.step ⟨.opened acc, toks⟩ c = Lex.step ⟨.opened [], pushText acc toks⟩ c := by
    simp only [Lex.step]
    rw [if_neg hc, if_neg hc]
    rfl
  rw [e2]

/-- The items of a text, whatever follows. -/
def Lexes (s : Str) (ts : List Tok) : Prop := ∀ toks : List Tok,
  (∀ (c : Char) (k : Str), c ≠ '-' → (s ++ '{' :: '{' :: c :: k).foldl Lex.step ⟨.text [], toks⟩ =
    ('{' :: '{' :: c :: k).foldl Lex.step ⟨.text [], ts.reverse ++ toks⟩) ∧
  lexEnd (s.foldl Lex.step ⟨.text [], toks⟩) = some (toks.reverse ++ ts)

/-- The items of an action. -/
def Acts (s : Str) (ts : List Tok) : Prop :=
  (∃ c k, s = '{' :: '{' :: c :: k ∧ c ≠ '-') ∧ ∀ toks, s.foldl Lex.step ⟨.text [], toks⟩ = ⟨.text [], ts.reverse ++ toks⟩

def textToks (t : Str) : List Tok := if t = [] then [] else [.text t]

theorem textToks_push (t : Str) (toks : List Tok) : pushText t.reverse toks = (textToks t).reverse ++ toks := by
  unfold pushText textToks
  by_cases h : t = [] <;> simp [h]

theorem Lexes.plain {t : Str} (h : Plain t) : Lexes t (textToks t) := by
  intro toks
  have e := text_run toks t.length t [] (Nat.le_refl _) h
  rw [List.append_nil] at e
  constructor
  · intro c k hc
    rw [List.foldl_append, e, closeText _ _ hc, textToks_push]
  · rw [e]
    simp only [lexEnd]
    rw [textToks_push]
    simp

theorem Lexes.cat {s a s' : Str} {ts ta ts' : List Tok} (h : Lexes s ts) (ha : Acts a ta) (h' : Lexes s' ts') :
    Lexes (s ++ (a ++ s')) (ts ++ (ta ++ ts')) := by
  intro toks
  obtain ⟨⟨c, k, rfl, hc⟩, hr⟩ := ha
  have e : ∀ tail : Str, (s ++ ('{' :: '{' :: c :: k ++ tail)).foldl Lex.step ⟨.text [], toks⟩ =
      tail.foldl Lex.step ⟨.text [], ta.reverse ++ (ts.reverse ++ toks)⟩ := by
    intro tail
    have := (h toks).1 c (k ++ tail) hc
    simp only [List.cons_append] at this ⊢
    rw [this]
    have h2 := hr (ts.reverse ++ toks)
    rw [← h2, ← List.foldl_append]
    rfl
  constructor
  · intro d m hd
    have := e (s' ++ '{' :: '{' :: d :: m)
    simp only [List.append_assoc] at this ⊢
    rw [this, (h' _).1 d m hd]
    simp
  · rw [e s', (h' _).2]
    simp

theorem acts_field (p x : Str) (pre : List Tok) (hp : ∃ c k, p = '{' :: '{' :: c :: k ∧ c ≠ '-') (hx : Word x)
    (hr : ∀ toks, p.foldl Lex.step ⟨.text [], toks⟩ = ⟨.field [], pre.reverse ++ toks⟩) :
    Acts (p ++ (x ++ g!"}}")) (pre ++ [.field x, .right]) := by
  refine ⟨?_, fun toks => ?_⟩
  · obtain ⟨c, k, rfl, hc⟩ := hp
    exact ⟨c, k ++ (x ++ g!"}}"), rfl, hc⟩
  · have := field_end x.reverse (by simpa using hx.1) (pre.reverse ++ toks) false
    simp only [Bool.false_eq_true, if_false, List.nil_append] at this
    rw [List.foldl_append, hr, List.foldl_append, field_run _ x [] hx.2.1 (fun _ => hx.2.2), List.append_nil, this]
    simp [afterItem]

/-- `$.A.B` -/
def rootToks (f g : Str) : List Tok := [.var [], .field f, .field g]

def shownToks : Shown → List Tok
  | .name => [.left, .var [], .field g!"Interface", .field g!"Name", .right]
  | .var x => [.left, .var [], .field g!"Vars", .field x, .right]
  | .method => [.left, .field g!"Name", .right]
  | .dot => [.left, .dot, .right]

/-- `if`, `with` and `range`, with the beginning of an action. -/
def openToks (w f g : Str) : List Tok := [.left, .ident w, .space, .var [], .field f, .field g, .right]

def endToks : List Tok := [.left, .ident g!"end", .right]

def elseToks : List Tok := [.left, .ident g!"else", .right]

theorem acts_shown {k : Kind} {s : Shown} (h : s.Ok k) : Acts s.source (shownToks s) := by
  cases s with
  | name => exact ⟨⟨'$', _, rfl, by decide⟩, fun _ => rfl⟩
  | var x => exact acts_field g!"{{$.Vars." x [.left, .var [], .field g!"Vars"] ⟨'$', _, rfl, by decide⟩ h (fun _ => rfl)
  | method => exact ⟨⟨'.', _, rfl, by decide⟩, fun _ => rfl⟩
  | dot => exact ⟨⟨'.', _, rfl, by decide⟩, fun _ => rfl⟩

theorem acts_if {x : Str} (h : Word x) : Acts (g!"{{if $.Vars." ++ (x ++ g!"}}")) (openToks g!"if" g!"Vars" x) :=
  acts_field g!"{{if $.Vars." x [.left, .ident g!"if", .space, .var [], .field g!"Vars"] ⟨'i', _, rfl, by decide⟩ h (fun _ => rfl)

theorem acts_with {x : Str} (h : Word x) : Acts (g!"{{with $.Vars." ++ (x ++ g!"}}")) (openToks g!"with" g!"Vars" x) :=
  acts_field g!"{{with $.Vars." x [.left, .ident g!"with", .space, .var [], .field g!"Vars"] ⟨'w', _, rfl, by decide⟩ h (fun _ => rfl)

theorem acts_range : Acts g!"{{range $.Interface.Methods}}" (openToks g!"range" g!"Interface" g!"Methods") :=
  ⟨⟨'r', _, rfl, by decide⟩, fun _ => rfl⟩

theorem acts_end : Acts g!"{{end}}" endToks := ⟨⟨'e', _, rfl, by decide⟩, fun _ => rfl⟩

theorem acts_else : Acts g!"{{else}}" elseToks := ⟨⟨'e', _, rfl, by decide⟩, fun _ => rfl⟩

/-- `{{else if $.Vars.x}}` -/
def elsIfToks (x : Str) : List Tok :=
  [.left, .ident g!"else", .space, .ident g!"if", .space, .var [], .field g!"Vars", .field x, .right]

theorem acts_elsIf {x : Str} (h : Word x) : Acts (g!"{{else if $.Vars." ++ (x ++ g!"}}")) (elsIfToks x) :=
  acts_field g!"{{else if $.Vars." x [.left, .ident g!"else", .space, .ident g!"if", .space, .var [], .field g!"Vars"]
    ⟨'e', _, rfl, by decide⟩ h (fun _ => rfl)

mutual

def blockToks : Block → List Tok
  | .last t => textToks t
  | .shown t s rest => textToks t ++ (shownToks s ++ blockToks rest)
  | .cond t x yes no rest =>
    textToks t ++ (openToks g!"if" g!"Vars" x ++ ((blockToks yes ++ tailToks no) ++ (endToks ++ blockToks rest)))
  | .with_ t x yes no rest =>
    textToks t ++ (openToks g!"with" g!"Vars" x ++ ((blockToks yes ++ tailToks no) ++ (endToks ++ blockToks rest)))
  | .each t body no rest =>
    textToks t ++ (openToks g!"range" g!"Interface" g!"Methods" ++ ((blockToks body ++ tailToks no) ++ (endToks ++ blockToks rest)))

def tailToks : Tail → List Tok
  | .none => []
  | .els b => elseToks ++ blockToks b
  | .elsIf x yes no => elsIfToks x ++ (blockToks yes ++ tailToks no)

end

theorem simple_ok {k : Kind} {tl : Tail} (h : tl.Simple k) : tl.Ok k := by
  cases tl with
  | none => trivial
  | els b => simpa [Tail.Simple, Tail.Ok] using h
  | elsIf x yes no => exact absurd h (by simp [Tail.Simple])

mutual

theorem lexes_block : ∀ (b : Block) (k : Kind), b.Ok k → Lexes b.source (blockToks b)
  | .last t, k, h => by
    simp only [Block.Ok] at h
    simpa [Block.source, blockToks] using Lexes.plain h
  | .shown t s rest, k, h => by
    simp only [Block.Ok] at h
    simpa only [Block.source, blockToks] using (Lexes.plain h.1).cat (acts_shown h.2.1) (lexes_block rest k h.2.2)
  | .cond t x yes no rest, k, h => by
    simp only [Block.Ok] at h
    have := (Lexes.plain h.1).cat (acts_if h.2.1)
      ((lexes_tail no k h.2.2.2.1 _ _ (lexes_block yes k h.2.2.1)).cat acts_end (lexes_block rest k h.2.2.2.2))
    simpa only [Block.source, blockToks, List.append_assoc] using this
  | .with_ t x yes no rest, k, h => by
    simp only [Block.Ok] at h
    have := (Lexes.plain h.1).cat (acts_with h.2.1)
      ((lexes_tail no k (simple_ok h.2.2.2.1) _ _ (lexes_block yes .value h.2.2.1)).cat acts_end (lexes_block rest k h.2.2.2.2))
    simpa only [Block.source, blockToks, List.append_assoc] using this
  | .each t body no rest, k, h => by
    simp only [Block.Ok] at h
    have := (Lexes.plain h.1).cat acts_range
      ((lexes_tail no k (simple_ok h.2.2.1) _ _ (lexes_block body .method h.2.1)).cat acts_end (lexes_block rest k h.2.2.2))
    simpa only [Block.source, blockToks, List.append_assoc] using this

theorem lexes_tail : ∀ (tl : Tail) (k : Kind), tl.Ok k → ∀ (s : Str) (ts : List Tok), Lexes s ts →
    Lexes (s ++ tl.source) (ts ++ tailToks tl)
  | .none, _, _, s, ts, hs => by simpa [Tail.source, tailToks] using hs
  | .els b, k, h, s, ts, hs => by
    simp only [Tail.Ok] at h
    simpa only [Tail.source, tailToks] using hs.cat acts_else (lexes_block b k h)
  | .elsIf x yes no, k, h, s, ts, hs => by
    simp only [Tail.Ok] at h
    simpa only [Tail.source, tailToks] using hs.cat (acts_elsIf h.1) (lexes_tail no k h.2.2 _ _ (lexes_block yes k h.2.1))

end

/-! ## Parsing -/

/-- `$.A.B` as a command. -/
def rootCmd (f g : Str) : List Arg := [.var [] [f, g]]

def shownNode : Shown → Node
  | .name => .print (rootCmd g!"Interface" g!"Name")
  | .var x => .print (rootCmd g!"Vars" x)
  | .method => .print [.dot [g!"Name"]]
  | .dot => .print [.dot []]

mutual

def blockNodes : Block → List Node
  | .last t => textNodes t
  | .shown t s rest => textNodes t ++ ([shownNode s] ++ blockNodes rest)
  | .cond t x yes no rest => textNodes t ++ ([.cond (rootCmd g!"Vars" x) (blockNodes yes) (tailNodes no)] ++ blockNodes rest)
  | .with_ t x yes no rest => textNodes t ++ ([.with_ (rootCmd g!"Vars" x) (blockNodes yes) (tailNodes no)] ++ blockNodes rest)
  | .each t body no rest =>
    textNodes t ++ ([.each (rootCmd g!"Interface" g!"Methods") (blockNodes body) (tailNodes no)] ++ blockNodes rest)

def tailNodes : Tail → List Node
  | .none => []
  | .els b => blockNodes b
  | .elsIf x yes no => [.cond (rootCmd g!"Vars" x) (blockNodes yes) (tailNodes no)]

end

/-- The nodes in front are parsed, whatever follows. -/
def Nest (toks : List Tok) (ns : List Node) : Prop := ∀ (rest : List Tok) (ms : List Node) (stop : Stop) (r : List Tok),
  (∀ n, rest.length < n → parseNodes n rest = some (ms, stop, r)) →
  ∀ n, (toks ++ rest).length < n → parseNodes n (toks ++ rest) = some (ns ++ ms, stop, r)

theorem Nest.append {a b : List Tok} {m n : List Node} (h1 : Nest a m) (h2 : Nest b n) : Nest (a ++ b) (m ++ n) := by
  intro rest ms stop r hr k hk
  rw [List.append_assoc] at hk ⊢
  rw [List.append_assoc]
  exact h1 (b ++ rest) (n ++ ms) stop r (h2 rest ms stop r hr) k hk

theorem nest_nil : Nest [] [] := fun _ _ _ _ h n hn => h n hn

theorem nest_text (t : Str) : Nest (textToks t) (textNodes t) := by
  unfold textToks textNodes
  by_cases hs : t = []
  · subst hs
    exact nest_nil
  · rw [if_neg hs, if_neg hs]
    intro rest ms stop r hr n hn
    simp only [List.nil_append, List.cons_append] at hn ⊢
    obtain ⟨n, rfl⟩ : ∃ k, n = k + 1 := ⟨n - 1, by simp at hn; omega⟩
    simp only [parseNodes]
    rw [hr n (by simp at hn; omega)]
    rfl

theorem parseCmd_root (f g : Str) (rest : List Tok) :
    parseCmd (.space :: .var [] :: .field f :: .field g :: .right :: rest) = some (rootCmd f g, rest) := by
  unfold parseCmd
  obtain ⟨k, hk⟩ : ∃ k, (Tok.space :: Tok.var [] :: Tok.field f :: Tok.field g :: Tok.right :: rest).length = k + 3 :=
    ⟨rest.length + 2, by simp⟩
  rw [hk]
  rfl

theorem parseCmd_root' (f g : Str) (rest : List Tok) :
    parseCmd (.var [] :: .field f :: .field g :: .right :: rest) = some (rootCmd f g, rest) := by
  unfold parseCmd
  obtain ⟨k, hk⟩ : ∃ k, (Tok.var [] :: Tok.field f :: Tok.field g :: Tok.right :: rest).length = k + 2 :=
    ⟨rest.length + 2, by simp⟩
  rw [hk]
  rfl

theorem nest_shown (s : Shown) : Nest (shownToks s) [shownNode s] := by
  intro rest ms stop r hr n hn
  obtain ⟨n, rfl⟩ : ∃ k, n = k + 1 := ⟨n - 1, by omega⟩
  have hroot : ∀ f g : Str, (([Tok.left, .var [], .field f, .field g, .right] ++ rest).length < n + 1) →
      parseNodes (n + 1) ([Tok.left, .var [], .field f, .field g, .right] ++ rest) = some ([.print (rootCmd f g)] ++ ms, stop, r) := by
    intro f g hn
    have hs : skipSpace (.var [] :: .field f :: .field g :: .right :: rest) = .var [] :: .field f :: .field g :: .right :: rest := rfl
    have hs2 : skipSpace (.field f :: .field g :: .right :: rest) = .field f :: .field g :: .right :: rest := rfl
    simp only [List.cons_append, List.nil_append, parseNodes, hs, hs2, parseCmd_root']
    show (parseNodes n rest).bind _ = _
    rw [hr n (by simp at hn; omega)]
    rfl
  cases s with
  | name => exact hroot _ _ hn
  | var x => exact hroot _ _ hn
  | method =>
    have hc : parseCmd (.field g!"Name" :: .right :: rest) = some ([.dot [g!"Name"]], rest) := by
      unfold parseCmd
      obtain ⟨k, hk⟩ : ∃ k, (Tok.field g!"Name" :: Tok.right :: rest).length = k + 2 := ⟨rest.length, by simp⟩
      rw [hk]
      rfl
    have hs : skipSpace (.field g!"Name" :: .right :: rest) = .field g!"Name" :: .right :: rest := rfl
    simp only [shownToks, List.cons_append, List.nil_append, parseNodes, hs, hc]
    show (parseNodes n rest).bind _ = _
    rw [hr n (by simp [shownToks] at hn; omega)]
    rfl
  | dot =>
    have hc : parseCmd (.dot :: .right :: rest) = some ([.dot []], rest) := by
      unfold parseCmd
      obtain ⟨k, hk⟩ : ∃ k, (Tok.dot :: Tok.right :: rest).length = k + 2 := ⟨rest.length, by simp⟩
      rw [hk]
      rfl
    have hs : skipSpace (.dot :: .right :: rest) = .dot :: .right :: rest := rfl
    simp only [shownToks, List.cons_append, List.nil_append, parseNodes, hs, hc]
    show (parseNodes n rest).bind _ = _
    rw [hr n (by simp [shownToks] at hn; omega)]
    rfl

theorem parse_end (n : Nat) (rest : List Tok) : parseNodes (n + 1) (endToks ++ rest) = some ([], .fin, rest) := rfl

theorem parse_else (n : Nat) (rest : List Tok) : parseNodes (n + 1) (elseToks ++ rest) = some ([], .els, rest) := rfl

theorem parse_elsIf (n : Nat) (x : Str) (rest : List Tok) :
    parseNodes (n + 1) (elsIfToks x ++ rest) =
      some ([], .elsIf, .space :: .var [] :: .field g!"Vars" :: .field x :: .right :: rest) := rfl

/-- A keyword and the node it gives. -/
inductive Keyword : Str → (List Arg → List Node → List Node → Node) → Prop
  | if_ : Keyword g!"if" .cond
  | with_ : Keyword g!"with" .with_
  | range : Keyword g!"range" .each

theorem keyword_end {w : Str} {mk : List Arg → List Node → List Node → Node} (hw : Keyword w mk) {n : Nat} {f g : Str}
    {rest r1 r2 : List Tok} {yes ns : List Node} {stop : Stop} (h1 : parseNodes n rest = some (yes, .fin, r1))
    (h2 : parseNodes n r1 = some (ns, stop, r2)) :
    parseNodes (n + 1) (openToks w f g ++ rest) = some (mk (rootCmd f g) yes [] :: ns, stop, r2) := by
  have hs : ∀ w, skipSpace (.ident w :: .space :: .var [] :: .field f :: .field g :: .right :: rest) =
    .ident w :: .space :: .var [] :: .field f :: .field g :: .right :: rest := fun _ => rfl
  have hv : rangeVar (.space :: .var [] :: .field f :: .field g :: .right :: rest) =
    (none, .space :: .var [] :: .field f :: .field g :: .right :: rest) := rfl
  cases hw <;> simp [openToks, parseNodes, hs, hv, parseCmd_root, h1, h2, rangeNode]

theorem keyword_else {w : Str} {mk : List Arg → List Node → List Node → Node} (hw : Keyword w mk) {n : Nat} {f g : Str}
    {rest r1 r2 r3 : List Tok} {yes no ns : List Node} {stop : Stop} (h1 : parseNodes n rest = some (yes, .els, r1))
    (h2 : parseNodes n r1 = some (no, .fin, r2)) (h3 : parseNodes n r2 = some (ns, stop, r3)) :
    parseNodes (n + 1) (openToks w f g ++ rest) = some (mk (rootCmd f g) yes no :: ns, stop, r3) := by
  have hs : ∀ w, skipSpace (.ident w :: .space :: .var [] :: .field f :: .field g :: .right :: rest) =
    .ident w :: .space :: .var [] :: .field f :: .field g :: .right :: rest := fun _ => rfl
  have hv : rangeVar (.space :: .var [] :: .field f :: .field g :: .right :: rest) =
    (none, .space :: .var [] :: .field f :: .field g :: .right :: rest) := rfl
  cases hw <;> simp [openToks, parseNodes, hs, hv, parseCmd_root, h1, h2, h3, rangeNode]

theorem if_elsIf {n : Nat} {f g : Str} {rest r1 r2 : List Tok} {yes ns : List Node} {no : Node} {stop : Stop}
    (h1 : parseNodes n rest = some (yes, .elsIf, r1))
    (h2 : parseNodes n (.left :: .ident g!"if" :: r1) = some (no :: ns, stop, r2)) :
    parseNodes (n + 1) (openToks g!"if" f g ++ rest) = some (.cond (rootCmd f g) yes [no] :: ns, stop, r2) := by
  have hs : skipSpace (.ident g!"if" :: .space :: .var [] :: .field f :: .field g :: .right :: rest) =
    .ident g!"if" :: .space :: .var [] :: .field f :: .field g :: .right :: rest := rfl
  simp [openToks, parseNodes, hs, parseCmd_root, h1, h2]

theorem nest_none {w : Str} {mk : List Arg → List Node → List Node → Node} (hw : Keyword w mk) (f g : Str) {yt : List Tok}
    {yn : List Node} (hy : Nest yt yn) : Nest (openToks w f g ++ ((yt ++ []) ++ endToks)) [mk (rootCmd f g) yn []] := by
  intro rest ms stop r hr n hn
  obtain ⟨n, rfl⟩ : ∃ k, n = k + 1 := ⟨n - 1, by omega⟩
  have h1 := hy (endToks ++ rest) [] .fin rest (fun m hm => by
    obtain ⟨m, rfl⟩ : ∃ k, m = k + 1 := ⟨m - 1, by omega⟩
    exact parse_end m rest) n (by simp [openToks] at hn ⊢; omega)
  have h2 := hr n (by simp [openToks] at hn; omega)
  rw [List.append_nil] at h1
  have := keyword_end hw (f := f) (g := g) h1 h2
  simpa only [List.append_assoc, List.append_nil, List.nil_append, List.cons_append] using this

theorem nest_els {w : Str} {mk : List Arg → List Node → List Node → Node} (hw : Keyword w mk) (f g : Str) {yt nt : List Tok}
    {yn nn : List Node} (hy : Nest yt yn) (hn : Nest nt nn) :
    Nest (openToks w f g ++ ((yt ++ (elseToks ++ nt)) ++ endToks)) [mk (rootCmd f g) yn nn] := by
  intro rest ms stop r hr n hl
  obtain ⟨n, rfl⟩ : ∃ k, n = k + 1 := ⟨n - 1, by omega⟩
  have h1 := hy (elseToks ++ (nt ++ (endToks ++ rest))) [] .els (nt ++ (endToks ++ rest)) (fun m hm => by
    obtain ⟨m, rfl⟩ : ∃ k, m = k + 1 := ⟨m - 1, by omega⟩
    exact parse_else m _) n (by simp [openToks] at hl ⊢; omega)
  have h2 := hn (endToks ++ rest) [] .fin rest (fun m hm => by
    obtain ⟨m, rfl⟩ : ∃ k, m = k + 1 := ⟨m - 1, by omega⟩
    exact parse_end m rest) n (by simp [openToks] at hl ⊢; omega)
  have h3 := hr n (by simp [openToks] at hl; omega)
  rw [List.append_nil] at h1 h2
  have := keyword_else hw (f := f) (g := g) h1 h2 h3
  simpa only [List.append_assoc, List.append_nil, List.nil_append, List.cons_append] using this

theorem nest_elsIf (x x' : Str) {yt tl : List Tok} {yn : List Node} {no : Node} (hy : Nest yt yn)
    (ht : Nest (openToks g!"if" g!"Vars" x' ++ (tl ++ endToks)) [no]) :
    Nest (openToks g!"if" g!"Vars" x ++ ((yt ++ (elsIfToks x' ++ tl)) ++ endToks)) [.cond (rootCmd g!"Vars" x) yn [no]] := by
  intro rest ms stop r hr n hl
  obtain ⟨n, rfl⟩ : ∃ k, n = k + 1 := ⟨n - 1, by omega⟩
  have h1 := hy (elsIfToks x' ++ (tl ++ (endToks ++ rest))) [] .elsIf _ (fun m hm => by
    obtain ⟨m, rfl⟩ : ∃ k, m = k + 1 := ⟨m - 1, by omega⟩
    exact parse_elsIf m x' _) n (by simp [openToks] at hl ⊢; omega)
  have h2 := ht rest ms stop r hr n (by simp [openToks, elsIfToks] at hl ⊢; omega)
  rw [List.append_nil] at h1
  have := if_elsIf (f := g!"Vars") (g := x) h1 (by simpa only [openToks, List.append_assoc, List.nil_append, List.cons_append] using h2)
  simpa only [List.append_assoc, List.append_nil, List.nil_append, List.cons_append] using this

mutual

theorem nest_block : ∀ (b : Block) (k : Kind), b.Ok k → Nest (blockToks b) (blockNodes b)
  | .last t, _, _ => by simpa only [blockToks, blockNodes] using nest_text t
  | .shown t s rest, k, h => by
    simp only [Block.Ok] at h
    simpa only [blockToks, blockNodes] using (nest_text t).append ((nest_shown s).append (nest_block rest k h.2.2))
  | .cond t x yes no rest, k, h => by
    simp only [Block.Ok] at h
    have := (nest_text t).append ((nest_cond no k h.2.2.2.1 x _ _ (nest_block yes k h.2.2.1)).append (nest_block rest k h.2.2.2.2))
    simpa only [blockToks, blockNodes, List.append_assoc] using this
  | .with_ t x yes no rest, k, h => by
    simp only [Block.Ok] at h
    have := (nest_text t).append ((nest_simple no k h.2.2.2.1 .with_ g!"Vars" x _ _ (nest_block yes _ h.2.2.1)).append (nest_block rest k h.2.2.2.2))
    simpa only [blockToks, blockNodes, List.append_assoc] using this
  | .each t body no rest, k, h => by
    simp only [Block.Ok] at h
    have := (nest_text t).append ((nest_simple no k h.2.2.1 .range g!"Interface" g!"Methods" _ _ (nest_block body _ h.2.1)).append (nest_block rest k h.2.2.2))
    simpa only [blockToks, blockNodes, List.append_assoc] using this

theorem nest_cond : ∀ (tl : Tail) (k : Kind), tl.Ok k → ∀ (x : Str) (yt : List Tok) (yn : List Node), Nest yt yn →
    Nest (openToks g!"if" g!"Vars" x ++ ((yt ++ tailToks tl) ++ endToks)) [.cond (rootCmd g!"Vars" x) yn (tailNodes tl)]
  | .none, _, _, x, yt, yn, hy => by simpa only [tailToks, tailNodes] using nest_none .if_ g!"Vars" x hy
  | .els b, k, h, x, yt, yn, hy => by
    simp only [Tail.Ok] at h
    simpa only [tailToks, tailNodes] using nest_els .if_ g!"Vars" x hy (nest_block b k h)
  | .elsIf x' yes no, k, h, x, yt, yn, hy => by
    simp only [Tail.Ok] at h
    simpa only [tailToks, tailNodes] using nest_elsIf x x' hy (nest_cond no k h.2.2 x' _ _ (nest_block yes k h.2.1))

theorem nest_simple : ∀ (tl : Tail) (k : Kind), tl.Simple k → ∀ {w : Str} {mk : List Arg → List Node → List Node → Node}
    (_ : Keyword w mk) (f g : Str) (yt : List Tok) (yn : List Node), Nest yt yn →
    Nest (openToks w f g ++ ((yt ++ tailToks tl) ++ endToks)) [mk (rootCmd f g) yn (tailNodes tl)]
  | .none, _, _, _, _, hw, f, g, yt, yn, hy => by simpa only [tailToks, tailNodes] using nest_none hw f g hy
  | .els b, k, h, _, _, hw, f, g, yt, yn, hy => by
    simp only [Tail.Simple] at h
    simpa only [tailToks, tailNodes] using nest_els hw f g hy (nest_block b k h)
  | .elsIf _ _ _, _, h, _, _, _, _, _, _, _, _ => by simp only [Tail.Simple] at h

end

theorem nodesScoped_append (vars : List Str) (ms : List Node) : ∀ ns : List Node, nodesScoped vars ns = some vars →
    (∀ n ∈ ns, n.scoped vars = some vars) → nodesScoped vars (ns ++ ms) = nodesScoped vars ms
  | [], _, _ => rfl
  | n :: ns, h, hn => by
    have h0 := hn n (by simp)
    simp only [List.cons_append, nodesScoped, h0, Option.bind_some] at h ⊢
    exact nodesScoped_append vars ms ns h fun m hm => hn m (by simp [hm])

theorem scoped_text (t : Str) (ms : List Node) : nodesScoped [[]] (textNodes t ++ ms) = nodesScoped [[]] ms := by
  unfold textNodes
  split <;> simp [nodesScoped, Node.scoped]

mutual

theorem scoped_block : ∀ b : Block, nodesScoped [[]] (blockNodes b) = some [[]]
  | .last t => by
    have := scoped_text t []
    rw [List.append_nil] at this
    simpa only [blockNodes, nodesScoped] using this
  | .shown t s rest => by
    have h := scoped_block rest
    cases s <;> simp [blockNodes, scoped_text, nodesScoped, shownNode, rootCmd, Node.scoped, argsScoped, Arg.scoped, h]
  | .cond t x yes no rest => by
    simp [blockNodes, scoped_text, nodesScoped, rootCmd, Node.scoped, argsScoped, Arg.scoped, scoped_block yes, scoped_tail no,
      scoped_block rest]
  | .with_ t x yes no rest => by
    simp [blockNodes, scoped_text, nodesScoped, rootCmd, Node.scoped, argsScoped, Arg.scoped, scoped_block yes, scoped_tail no,
      scoped_block rest]
  | .each t body no rest => by
    simp [blockNodes, scoped_text, nodesScoped, rootCmd, Node.scoped, argsScoped, Arg.scoped, scoped_block body, scoped_tail no,
      scoped_block rest]

theorem scoped_tail : ∀ tl : Tail, nodesScoped [[]] (tailNodes tl) = some [[]]
  | .none => rfl
  | .els b => by simpa only [tailNodes] using scoped_block b
  | .elsIf x yes no => by
    simp [tailNodes, nodesScoped, rootCmd, Node.scoped, argsScoped, Arg.scoped, scoped_block yes, scoped_tail no]

end

theorem parse_block (b : Block) (k : Kind) (h : b.Ok k) : parse b.source = some (blockNodes b) := by
  have hl : lex b.source = some (blockToks b) := by
    have := (lexes_block b k h []).2
    simp only [List.reverse_nil, List.nil_append] at this
    exact this
  have hp := nest_block b k h [] [] .eof [] (fun n hn => by
    obtain ⟨n, rfl⟩ : ∃ k, n = k + 1 := ⟨n - 1, by simp at hn; omega⟩
    rfl)
  simp only [List.append_nil] at hp
  unfold parse
  rw [hl]
  show (parseNodes _ _).bind _ = _
  rw [hp _ (Nat.lt_succ_self _)]
  show (if (nodesScoped [[]] (blockNodes b)).isSome then _ else none) = _
  rw [scoped_block b]
  rfl

/-! ## Execution -/

/-- The order in which `range` visits the methods: that of the keys. -/
def Visits (d : Inputs) (names : List Str) : Prop :=
  ∃ es : Methods, es.Perm d.methods ∧ es.Pairwise (fun a b => a.1 < b.1) ∧ names = es.map (·.2.name)

theorem visits_sorted {d : Inputs} {names : List Str} (h : Visits d names) : names = d.sorted.map (·.name) := by
  obtain ⟨es, hp, hs, rfl⟩ := h
  have hn : (es.map (·.1)).Nodup := by
    rw [List.Nodup, List.pairwise_map]
    exact hs.imp fun h e => absurd (e ▸ h) (List.lt_irrefl _)
  have hk := Gowrap.Spec.sorted_keys (fun e : Str × Method => e.1) d.methods (((hp.map _).nodup_iff).1 hn)
  rw [List.pairwise_map] at hk
  have : es = sortBy (fun a b => decide (a.1 ≤ b.1)) d.methods := by
    refine List.Perm.eq_of_pairwise (le := fun (a b : Str × Method) => a.1 < b.1) ?_ hs hk (hp.trans (sortBy_perm _ _).symm)
    intro a b _ _ h h'
    exact absurd h' (List.lt_asymm h)
  rw [this]
  simp [Inputs.sorted, List.map_map, Function.comp_def]

/-- The value of `.`. -/
inductive DotIs (d : Inputs) : Kind → Dot → TVal → Prop
  | root : DotIs d .root .root d.value
  | method (m : Method) : DotIs d .method (.method m.name) (.method m)
  | value (v : VarValue) : DotIs d .value (.value v) (ofVar (some v))

theorem exec_text_append (u : Uni) (sc : Scope) (t : Str) (ns : List Node) (w : Str) :
    execNodes u sc (textNodes t ++ ns) w = execNodes u sc ns (w ++ t) := by
  unfold textNodes
  split
  · rename_i h; subst h; simp
  · simp [execNodes, execNode]

/-- The scope of a template without variables. -/
def scopeOf (d : Inputs) (v : TVal) : Scope := ⟨[([], d.value)], v⟩

theorem eval_root (u : Uni) (d : Inputs) (v : TVal) (f g : Str) :
    evalCmd u (scopeOf d v) (rootCmd f g) = d.value.chain [f, g] [] := by
  simp [rootCmd, evalCmd, evalArgs, scopeOf, List.lookup]

theorem eval_var (u : Uni) (d : Inputs) (v : TVal) (x : Str) :
    evalCmd u (scopeOf d v) (rootCmd g!"Vars" x) = some (ofVar (d.vars x)) := by
  rw [eval_root]
  have e1 : d.value.access g!"Vars" [] = some (.vars d.vars) := rfl
  simp [TVal.chain, e1]
  rfl

theorem eval_methods (u : Uni) (d : Inputs) (v : TVal) :
    evalCmd u (scopeOf d v) (rootCmd g!"Interface" g!"Methods") =
      some (.map (d.methods.map fun e => (e.1, TVal.method e.2))) := by
  rw [eval_root]
  rfl

theorem ofVar_print (o : Option VarValue) : (ofVar o).print = some (printed o) := by
  cases o with
  | none => rfl
  | some v => cases v <;> rfl

theorem ofVar_opaque (o : Option VarValue) : (ofVar o).opaque = false := by
  cases o with
  | none => rfl
  | some v => cases v <;> rfl

theorem isSet_truth (w : Seen) (x : Str) : isSet w x ↔ (ofVar (w.vars x)).truth = true := by
  unfold isSet
  cases w.vars x with
  | none => simp [ofVar, TVal.truth]
  | some v => cases v <;> simp [ofVar, TVal.truth]

theorem exec_shown (u : Uni) (d : Inputs) (names : List Str) {k : Kind} {dot : Dot} {v : TVal} (hd : DotIs d k dot v) (s : Shown)
    (hs : s.Ok k) (out : Str) :
    execNode u (scopeOf d v) (shownNode s) out = some (out ++ s.output ⟨d.name, d.vars, names⟩ dot) := by
  cases s with
  | name =>
    have e : evalCmd u (scopeOf d v) (rootCmd g!"Interface" g!"Name") = some (.str d.name) := by rw [eval_root]; rfl
    simp only [shownNode, execNode, e, Shown.output]
    rfl
  | var x =>
    simp only [shownNode, execNode, eval_var, Shown.output]
    show (ofVar (d.vars x)).print.bind _ = _
    rw [ofVar_print]
    rfl
  | method =>
    cases hs
    cases hd with
    | method m => rfl
  | dot =>
    cases hs
    cases hd with
    | value vv =>
      have e : evalCmd u (scopeOf d (ofVar (some vv))) [.dot []] = some (ofVar (some vv)) := rfl
      simp only [shownNode, execNode, e, Shown.output]
      show (ofVar (some vv)).print.bind _ = _
      rw [ofVar_print]
      rfl

/-- The nodes print what the block should print. -/
def Shows (u : Uni) (d : Inputs) (v : TVal) (ns : List Node) (o : Str) : Prop :=
  ∀ out, execNodes u (scopeOf d v) ns out = some (out ++ o)

theorem shows_node {u : Uni} {d : Inputs} {v : TVal} {n : Node} {ns : List Node} {t o o' : Str} (hn : ∀ x c, n ≠ .declare x c)
    (h1 : ∀ out, execNode u (scopeOf d v) n out = some (out ++ o)) (h2 : Shows u d v ns o') :
    Shows u d v (textNodes t ++ ([n] ++ ns)) (t ++ o ++ o') := by
  intro out
  rw [exec_text_append]
  have : execNodes u (scopeOf d v) ([n] ++ ns) (out ++ t) =
      (execNode u (scopeOf d v) n (out ++ t)).bind fun w => execNodes u (scopeOf d v) ns w := by
    cases n with
    | declare x c => exact absurd rfl (hn x c)
    | _ => rfl
  rw [this, h1, Option.bind_some, h2]
  simp

theorem loop_shows {u : Uni} {d : Inputs} {w : Seen} {body : Block} {ns : List Node}
    (hb : ∀ m : Method, ∃ o, Prints w (.method m.name) body o ∧ Shows u d (.method m) ns o) : ∀ ms : List Method,
    ∃ o, PrintsEach w body (ms.map (·.name)) o ∧ ∀ (v : TVal) (out : Str),
      rangeLoop (fun x w => execNodes u { scopeOf d v with dot := x } ns w) (ms.map .method) out = some (out ++ o)
  | [] => ⟨[], .nil, fun _ out => by simp [rangeLoop]⟩
  | m :: ms => by
    obtain ⟨o, h1, h2⟩ := hb m
    obtain ⟨o', h3, h4⟩ := loop_shows hb ms
    refine ⟨o ++ o', .cons h1 h3, fun v out => ?_⟩
    have e : execNodes u { scopeOf d v with dot := .method m } ns out = some (out ++ o) := h2 out
    simp only [List.map_cons, rangeLoop, e]
    show rangeLoop _ _ (out ++ o) = _
    rw [h4 v]
    simp

mutual

theorem exec_block (u : Uni) (d : Inputs) : ∀ (b : Block) (k : Kind) (dot : Dot) (v : TVal), b.Ok k → DotIs d k dot v →
    ∃ o, Prints ⟨d.name, d.vars, d.sorted.map (·.name)⟩ dot b o ∧ Shows u d v (blockNodes b) o
  | .last t, k, dot, v, _, _ => ⟨t, .last, fun out => by
      have := exec_text_append u (scopeOf d v) t [] out
      rw [List.append_nil] at this
      simpa only [blockNodes, execNodes] using this⟩
  | .shown t s rest, k, dot, v, h, hd => by
    simp only [Block.Ok] at h
    obtain ⟨o, h1, h2⟩ := exec_block u d rest k dot v h.2.2 hd
    refine ⟨_, .shown h1, ?_⟩
    simp only [blockNodes]
    exact shows_node (by intro x c; cases s <;> simp [shownNode]) (exec_shown u d _ hd s h.2.1) h2
  | .cond t x yes no rest, k, dot, v, h, hd => by
    simp only [Block.Ok] at h
    obtain ⟨o, h1, h2⟩ := exec_block u d rest k dot v h.2.2.2.2 hd
    simp only [blockNodes]
    by_cases hx : isSet ⟨d.name, d.vars, d.sorted.map (·.name)⟩ x
    · obtain ⟨o', h3, h4⟩ := exec_block u d yes k dot v h.2.2.1 hd
      refine ⟨_, .condYes hx h3 h1, shows_node (by simp) (fun out => ?_) h2⟩
      have ht := (isSet_truth _ x).1 hx
      simp only [execNode, eval_var]
      show (if (ofVar (d.vars x)).opaque then none else if (ofVar (d.vars x)).truth then _ else _) = _
      rw [ofVar_opaque, if_neg (by decide), if_pos ht]
      exact h4 out
    · obtain ⟨o', h3, h4⟩ := exec_tail u d no k dot v h.2.2.2.1 hd
      refine ⟨_, .condNo hx h3 h1, shows_node (by simp) (fun out => ?_) h2⟩
      have ht : ¬ (ofVar (d.vars x)).truth = true := fun ht => hx ((isSet_truth _ x).2 ht)
      simp only [execNode, eval_var]
      show (if (ofVar (d.vars x)).opaque then none else if (ofVar (d.vars x)).truth then _ else _) = _
      rw [ofVar_opaque, if_neg (by decide), if_neg ht]
      exact h4 out
  | .with_ t x yes no rest, k, dot, v, h, hd => by
    simp only [Block.Ok] at h
    obtain ⟨o, h1, h2⟩ := exec_block u d rest k dot v h.2.2.2.2 hd
    simp only [blockNodes]
    by_cases hx : isSet ⟨d.name, d.vars, d.sorted.map (·.name)⟩ x
    · have ht := (isSet_truth _ x).1 hx
      obtain ⟨vv, hv, hne⟩ := hx
      obtain ⟨o', h3, h4⟩ := exec_block u d yes .value (.value vv) (ofVar (some vv)) h.2.2.1 (.value vv)
      refine ⟨_, .withYes hv hne h3 h1, shows_node (by simp) (fun out => ?_) h2⟩
      simp only [execNode, eval_var]
      show (if (ofVar (d.vars x)).opaque then none else if (ofVar (d.vars x)).truth then _ else _) = _
      rw [ofVar_opaque, if_neg (by decide), if_pos ht]
      have hv' : d.vars x = some vv := hv
      rw [hv']
      exact h4 out
    · obtain ⟨o', h3, h4⟩ := exec_tail u d no k dot v (simple_ok h.2.2.2.1) hd
      refine ⟨_, .withNo hx h3 h1, shows_node (by simp) (fun out => ?_) h2⟩
      have ht : ¬ (ofVar (d.vars x)).truth = true := fun ht => hx ((isSet_truth _ x).2 ht)
      simp only [execNode, eval_var]
      show (if (ofVar (d.vars x)).opaque then none else if (ofVar (d.vars x)).truth then _ else _) = _
      rw [ofVar_opaque, if_neg (by decide), if_neg ht]
      exact h4 out
  | .each t body no rest, k, dot, v, h, hd => by
    simp only [Block.Ok] at h
    obtain ⟨o, h1, h2⟩ := exec_block u d rest k dot v h.2.2.2 hd
    simp only [blockNodes]
    cases hm : d.sorted with
    | nil =>
      obtain ⟨o', h3, h4⟩ := exec_tail u d no k dot v (simple_ok h.2.2.1) hd
      rw [hm] at h1 h3
      refine ⟨_, .eachNone rfl h3 h1, shows_node (by simp) (fun out => ?_) h2⟩
      simp only [execNode, eval_methods]
      have e := methods_elements d
      rw [hm] at e
      simp [e]
      exact h4 out
    | cons m ms =>
      obtain ⟨o', h3, h4⟩ := loop_shows (fun m => exec_block u d body .method (.method m.name) (.method m) h.2.1 (.method m)) d.sorted
      rw [hm] at h1 h3 h4
      refine ⟨_, .eachSome (by simp) h3 h1, shows_node (by simp) (fun out => ?_) h2⟩
      simp only [execNode, eval_methods]
      have e := methods_elements d
      rw [hm] at e
      simp [e]
      exact h4 v out

theorem exec_tail (u : Uni) (d : Inputs) : ∀ (tl : Tail) (k : Kind) (dot : Dot) (v : TVal), tl.Ok k → DotIs d k dot v →
    ∃ o, PrintsTail ⟨d.name, d.vars, d.sorted.map (·.name)⟩ dot tl o ∧ Shows u d v (tailNodes tl) o
  | .none, _, _, _, _, _ => ⟨[], .none, fun out => by simp [tailNodes, execNodes]⟩
  | .els b, k, dot, v, h, hd => by
    simp only [Tail.Ok] at h
    obtain ⟨o, h1, h2⟩ := exec_block u d b k dot v h hd
    exact ⟨o, .els h1, by simpa only [tailNodes] using h2⟩
  | .elsIf x yes no, k, dot, v, h, hd => by
    simp only [Tail.Ok] at h
    simp only [tailNodes]
    by_cases hx : isSet ⟨d.name, d.vars, d.sorted.map (·.name)⟩ x
    · obtain ⟨o', h3, h4⟩ := exec_block u d yes k dot v h.2.1 hd
      refine ⟨_, .yes hx h3, fun out => ?_⟩
      have ht := (isSet_truth _ x).1 hx
      simp only [execNodes, execNode, eval_var]
      show ((if (ofVar (d.vars x)).opaque then none else if (ofVar (d.vars x)).truth then _ else _) : Option Str).bind _ = _
      rw [ofVar_opaque, if_neg (by decide), if_pos ht, h4 out]
      rfl
    · obtain ⟨o', h3, h4⟩ := exec_tail u d no k dot v h.2.2 hd
      refine ⟨_, .no hx h3, fun out => ?_⟩
      have ht : ¬ (ofVar (d.vars x)).truth = true := fun ht => hx ((isSet_truth _ x).2 ht)
      simp only [execNodes, execNode, eval_var]
      show ((if (ofVar (d.vars x)).opaque then none else if (ofVar (d.vars x)).truth then _ else _) : Option Str).bind _ = _
      rw [ofVar_opaque, if_neg (by decide), if_neg ht, h4 out]
      rfl

end

/-! ## The specification has one answer -/

theorem each_unique {w : Seen} {body : Block} (hb : ∀ dot o o', Prints w dot body o → Prints w dot body o' → o = o') :
    ∀ ms o o', PrintsEach w body ms o → PrintsEach w body ms o' → o = o'
  | [], _, _, h, h' => by cases h; cases h'; rfl
  | m :: ms, _, _, h, h' => by
    cases h with
    | cons h1 h2 =>
      cases h' with
      | cons h3 h4 => rw [hb _ _ _ h1 h3, each_unique hb ms _ _ h2 h4]

mutual

theorem prints_unique (w : Seen) : ∀ (b : Block) (dot : Dot) (o o' : Str), Prints w dot b o → Prints w dot b o' → o = o'
  | .last t, _, _, _, h, h' => by cases h; cases h'; rfl
  | .shown t s rest, _, _, _, h, h' => by
    cases h with
    | shown h =>
      cases h' with
      | shown h' => rw [prints_unique w rest _ _ _ h h']
  | .cond t x yes no rest, _, _, _, h, h' => by
    cases h with
    | condYes hx h1 h2 =>
      cases h' with
      | condYes _ h3 h4 => rw [prints_unique w yes _ _ _ h1 h3, prints_unique w rest _ _ _ h2 h4]
      | condNo hx' _ _ => exact absurd hx hx'
    | condNo hx h1 h2 =>
      cases h' with
      | condYes hx' _ _ => exact absurd hx' hx
      | condNo _ h3 h4 => rw [tail_unique w no _ _ _ h1 h3, prints_unique w rest _ _ _ h2 h4]
  | .with_ t x yes no rest, _, _, _, h, h' => by
    cases h with
    | withYes hv hn h1 h2 =>
      cases h' with
      | withYes hv' _ h3 h4 =>
        cases Option.some.inj (hv.symm.trans hv')
        rw [prints_unique w yes _ _ _ h1 h3, prints_unique w rest _ _ _ h2 h4]
      | withNo hx' _ _ => exact absurd ⟨_, hv, hn⟩ hx'
    | withNo hx h1 h2 =>
      cases h' with
      | withYes hv' hn' _ _ => exact absurd ⟨_, hv', hn'⟩ hx
      | withNo _ h3 h4 => rw [tail_unique w no _ _ _ h1 h3, prints_unique w rest _ _ _ h2 h4]
  | .each t body no rest, _, _, _, h, h' => by
    cases h with
    | eachSome hm h1 h2 =>
      cases h' with
      | eachSome _ h3 h4 =>
        rw [each_unique (fun dot o o' => prints_unique w body dot o o') _ _ _ h1 h3, prints_unique w rest _ _ _ h2 h4]
      | eachNone hm' _ _ => exact absurd hm' hm
    | eachNone hm h1 h2 =>
      cases h' with
      | eachSome hm' _ _ => exact absurd hm hm'
      | eachNone _ h3 h4 => rw [tail_unique w no _ _ _ h1 h3, prints_unique w rest _ _ _ h2 h4]

theorem tail_unique (w : Seen) : ∀ (tl : Tail) (dot : Dot) (o o' : Str), PrintsTail w dot tl o → PrintsTail w dot tl o' → o = o'
  | .none, _, _, _, h, h' => by cases h; cases h'; rfl
  | .els b, _, _, _, h, h' => by
    cases h with
    | els h =>
      cases h' with
      | els h' => exact prints_unique w b _ _ _ h h'
  | .elsIf x yes no, _, _, _, h, h' => by
    cases h with
    | yes hx h =>
      cases h' with
      | yes _ h' => exact prints_unique w yes _ _ _ h h'
      | no hx' _ => exact absurd hx hx'
    | no hx h =>
      cases h' with
      | yes hx' _ => exact absurd hx' hx
      | no _ h' => exact tail_unique w no _ _ _ h h'

end

/-- **C96** Every template of texts, the name of the interface, variables, the names of methods, `if` with any number of
`else if`, `with` and `range` over the methods, each with or without `else` and put into each other to any depth, is
accepted and prints exactly what the specification says: the branch of the first variable that was given and is not
empty; within `with` the value of the variable; the body of `range` once for every method, in the order of the names. -/
theorem C96_nested (u : Uni) (d : Inputs) (b : Block) (h : b.Ok .root) (names : List Str) (hn : Visits d names) (out : Str) :
    render u b.source d = some out ↔ Prints ⟨d.name, d.vars, names⟩ .root b out := by
  rw [visits_sorted hn]
  obtain ⟨o, h1, h2⟩ := exec_block u d b .root .root d.value h .root
  have e : render u b.source d = some o := by
    unfold render
    rw [parse_block b .root h]
    exact h2 []
  rw [e]
  constructor
  · intro he
    rw [← Option.some.inj he]
    exact h1
  · intro hp
    rw [prints_unique _ b _ _ _ h1 hp]

/-- C96. And such a template is always executed to its end. -/
theorem C96_accepted (u : Uni) (d : Inputs) (b : Block) (h : b.Ok .root) : ∃ out, render u b.source d = some out := by
  obtain ⟨o, _, h2⟩ := exec_block u d b .root .root d.value h .root
  refine ⟨o, ?_⟩
  unfold render
  rw [parse_block b .root h]
  exact h2 []

namespace Demo96

/-- A template that lists methods, in one of two ways, with a greeting. -/
def template : Block :=
  .cond g!"" g!"a" (.last g!"A") (.elsIf g!"b" (.with_ g!"B" g!"b" (.shown g!"=" .dot (.last g!";")) .none (.last g!"")) (.els (.last g!"C")))
    (.each g!" " (.shown g!"" .method (.cond g!"" g!"n" (.last g!"\n") .none (.last g!","))) (.els (.last g!"none"))
      (.shown g!"" .name (.last g!".")))

example : template.source = g!"{{if $.Vars.a}}A{{else if $.Vars.b}}B{{with $.Vars.b}}={{.}};{{end}}{{else}}C{{end}} " ++
    g!"{{range $.Interface.Methods}}{{.Name}}{{if $.Vars.n}}\n{{end}},{{else}}none{{end}}{{$.Interface.Name}}." := by decide +kernel

example : template.Ok .root := by
  have hp : ∀ {s : Str}, (∀ p ∈ (s ++ g!"{").zip (s ++ g!"{").tail, p ≠ ('{', '{')) → Plain s := fun h => Demo95.noInfix h
  have hw : ∀ {c : Char}, c.isAlphanum = true ∧ c.isDigit = false → Word [c] := fun h => ⟨by simp, by simpa using .inl h.1, by simpa using h.2⟩
  simp only [template, Block.Ok, Tail.Ok, Tail.Simple, Shown.Ok, and_true, true_and]
  exact ⟨hp (by decide), hw (by decide), hp (by decide), ⟨hw (by decide), ⟨hp (by decide), hw (by decide), ⟨hp (by decide), hp (by decide)⟩, hp (by decide)⟩,
    hp (by decide)⟩, hp (by decide), ⟨hp (by decide), hp (by decide), hw (by decide), hp (by decide), hp (by decide)⟩, hp (by decide), hp (by decide), hp (by decide)⟩

def data : Inputs :=
  { Demo93.reader with
    methods := [(g!"Read", ⟨[], [], g!"Read", [], [], false, false⟩), (g!"Close", ⟨[], [], g!"Close", [], [], false, false⟩)]
    vars := fun x => if x = g!"b" then some (.text g!"hi") else none }

example : Visits data [g!"Close", g!"Read"] :=
  ⟨data.methods.reverse, List.reverse_perm _, by decide, by decide⟩

example : render Uni.ascii template.source data = some g!"B=hi; Close,Read,Reader." := by decide +kernel

end Demo96

end Gowrap.Props
