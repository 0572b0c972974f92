import Verif.Proofs.SymSound
import Verif.Proofs.GoPut
import Verif.Proofs.Krfl
/-!
# Executing the built-in templates

Lemmas about the template language, and what the loops over methods and parameters write.
-/

namespace Gowrap.Tmpl

open Gowrap Go

/-! ## The template language -/

/-- The nodes of a template. -/
def nodes (t : Str) : List Node := (parse t).getD []

/-- The text before the first variable is declared, the variable and what follows. -/
def untilDeclare : List Node → Option (Str × Str × List Arg × List Node)
  | .text s :: r => (untilDeclare r).map fun x => (s ++ x.1, x.2)
  | .declare x cmd :: r => some ([], x, cmd, r)
  | _ => none

theorem exec_untilDeclare (u : Uni) (sc : Scope) (x : Str) (cmd : List Arg) (r : List Node) (v : TVal)
    (hv : evalCmd u sc cmd = some v) : ∀ (ns : List Node) (t : Str) (w : Str), untilDeclare ns = some (t, x, cmd, r) →
    execNodes u sc ns w = execNodes u (sc.bind x v) r (w ++ t)
  | [], _, _, h => by simp [untilDeclare] at h
  | .text s :: ns, t, w, h => by
    simp only [untilDeclare, Option.map_eq_some_iff] at h
    obtain ⟨⟨t', x', cmd', r'⟩, h1, h2⟩ := h
    cases h2
    show execNodes u sc ns (w ++ s) = _
    rw [exec_untilDeclare u sc x cmd r v hv ns t' (w ++ s) h1, List.append_assoc]
  | .declare y cmd' :: ns, t, w, h => by
    simp only [untilDeclare, Option.some.injEq, Prod.mk.injEq] at h
    obtain ⟨rfl, rfl, rfl, rfl⟩ := h
    show (evalCmd u sc _).bind _ = _
    rw [hv, List.append_nil]
    rfl
  | .print _ :: _, _, _, h => by simp [untilDeclare] at h
  | .cond _ _ _ :: _, _, _, h => by simp [untilDeclare] at h
  | .range _ _ _ _ :: _, _, _, h => by simp [untilDeclare] at h
  | .each _ _ _ :: _, _, _, h => by simp [untilDeclare] at h
  | .with_ _ _ _ :: _, _, _, h => by simp [untilDeclare] at h

/-- The value of a variable that has a default. -/
def varOr (v : Option VarValue) (dflt : Str) : Str :=
  match v with
  | some (.text s) => if s = [] then dflt else s
  | _ => dflt

theorem or_var (v : Option VarValue) (hv : v ≠ some .flag) (dflt : Str) :
    callFn.orFn [ofVar v, .str dflt] = some (.str (varOr v dflt)) := by
  cases v with
  | none => rfl
  | some v => cases v with
    | flag => exact absurd rfl hv
    | text s =>
      cases s with
      | nil => rfl
      | cons c s => rfl

/-- A list of nodes that declares no variable. -/
def noDeclare : List Node → Bool
  | [] => true
  | .declare _ _ :: _ => false
  | _ :: r => noDeclare r

theorem exec_append (u : Uni) (sc : Scope) : ∀ (a b : List Node) (w : Str), noDeclare a = true →
    execNodes u sc (a ++ b) w = (execNodes u sc a w).bind (execNodes u sc b)
  | [], _, _, _ => rfl
  | .declare _ _ :: _, _, _, h => by simp [noDeclare] at h
  | .text s :: a, b, w, h => exec_append u sc a b (w ++ s) h
  | .print cmd :: a, b, w, h => by
    show (execNode u sc (.print cmd) w).bind (execNodes u sc (a ++ b)) =
      ((execNode u sc (.print cmd) w).bind (execNodes u sc a)).bind _
    cases execNode u sc (.print cmd) w with
    | none => rfl
    | some w' => exact exec_append u sc a b w' h
  | .cond cmd y n :: a, b, w, h => by
    show (execNode u sc (.cond cmd y n) w).bind (execNodes u sc (a ++ b)) =
      ((execNode u sc (.cond cmd y n) w).bind (execNodes u sc a)).bind _
    cases execNode u sc (.cond cmd y n) w with
    | none => rfl
    | some w' => exact exec_append u sc a b w' h
  | .range x cmd y n :: a, b, w, h => by
    show (execNode u sc (.range x cmd y n) w).bind (execNodes u sc (a ++ b)) =
      ((execNode u sc (.range x cmd y n) w).bind (execNodes u sc a)).bind _
    cases execNode u sc (.range x cmd y n) w with
    | none => rfl
    | some w' => exact exec_append u sc a b w' h
  | .each cmd y n :: a, b, w, h => by
    show (execNode u sc (.each cmd y n) w).bind (execNodes u sc (a ++ b)) =
      ((execNode u sc (.each cmd y n) w).bind (execNodes u sc a)).bind _
    cases execNode u sc (.each cmd y n) w with
    | none => rfl
    | some w' => exact exec_append u sc a b w' h
  | .with_ cmd y n :: a, b, w, h => by
    show (execNode u sc (.with_ cmd y n) w).bind (execNodes u sc (a ++ b)) =
      ((execNode u sc (.with_ cmd y n) w).bind (execNodes u sc a)).bind _
    cases execNode u sc (.with_ cmd y n) w with
    | none => rfl
    | some w' => exact exec_append u sc a b w' h

/-- The conditions replaced by a branch. -/
def branch (b : Bool) : List Node → List Node
  | [] => []
  | .cond _ yes no :: r => (bif b then yes else no) ++ branch b r
  | n :: r => n :: branch b r

/-- All conditions have the value `b`. -/
def CondsAre (u : Uni) (sc : Scope) (b : Bool) : List Node → Prop
  | [] => True
  | .cond cmd yes no :: r => evalCmd u sc cmd = some (.bool b) ∧ noDeclare yes = true ∧ noDeclare no = true ∧ CondsAre u sc b r
  | .declare _ _ :: _ => False
  | _ :: r => CondsAre u sc b r

theorem exec_branch (u : Uni) (sc : Scope) (b : Bool) : ∀ (ns : List Node) (w : Str), CondsAre u sc b ns →
    execNodes u sc ns w = execNodes u sc (branch b ns) w
  | [], _, _ => rfl
  | .declare _ _ :: _, _, h => h.elim
  | .text s :: a, w, h => exec_branch u sc b a (w ++ s) h
  | .print cmd :: a, w, h => by
    show (execNode u sc (.print cmd) w).bind (execNodes u sc a) = (execNode u sc (.print cmd) w).bind (execNodes u sc (branch b a))
    cases execNode u sc (.print cmd) w with
    | none => rfl
    | some w' => exact exec_branch u sc b a w' h
  | .range x cmd y n :: a, w, h => by
    show (execNode u sc (.range x cmd y n) w).bind (execNodes u sc a) =
      (execNode u sc (.range x cmd y n) w).bind (execNodes u sc (branch b a))
    cases execNode u sc (.range x cmd y n) w with
    | none => rfl
    | some w' => exact exec_branch u sc b a w' h
  | .each cmd y n :: a, w, h => by
    show (execNode u sc (.each cmd y n) w).bind (execNodes u sc a) =
      (execNode u sc (.each cmd y n) w).bind (execNodes u sc (branch b a))
    cases execNode u sc (.each cmd y n) w with
    | none => rfl
    | some w' => exact exec_branch u sc b a w' h
  | .with_ cmd y n :: a, w, h => by
    show (execNode u sc (.with_ cmd y n) w).bind (execNodes u sc a) =
      (execNode u sc (.with_ cmd y n) w).bind (execNodes u sc (branch b a))
    cases execNode u sc (.with_ cmd y n) w with
    | none => rfl
    | some w' => exact exec_branch u sc b a w' h
  | .cond cmd y n :: a, w, h => by
    obtain ⟨h1, h2, h3, h4⟩ := h
    show (execNode u sc (.cond cmd y n) w).bind (execNodes u sc a) = execNodes u sc ((bif b then y else n) ++ branch b a) w
    have e : execNode u sc (.cond cmd y n) w = execNodes u sc (bif b then y else n) w := by
      show (evalCmd u sc cmd).bind (fun v => if v.opaque then none else if v.truth then execNodes u sc y w else execNodes u sc n w) = _
      rw [h1]
      cases b <;> rfl
    rw [e, exec_append u sc _ _ w (by cases b <;> assumption)]
    cases execNodes u sc (bif b then y else n) w with
    | none => rfl
    | some w' => exact exec_branch u sc b a w' h4

/-! ## Loops -/

/-- A loop that writes a text for every element. -/
theorem rangeLoop_texts {α : Type} (body : TVal → Str → Option Str) (v : α → TVal) (text : α → Str) :
    ∀ (l : List α) (w : Str), (∀ a ∈ l, ∀ w, body (v a) w = some (w ++ text a)) →
    rangeLoop body (l.map v) w = some (w ++ l.flatMap text)
  | [], w, _ => by simp [rangeLoop]
  | a :: l, w, h => by
    show (body (v a) w).bind (rangeLoop body (l.map v)) = _
    rw [h a (by simp)]
    show rangeLoop body (l.map v) (w ++ text a) = _
    rw [rangeLoop_texts body v text l _ (fun b hb => h b (by simp [hb]))]
    simp

theorem exec_range {α : Type} (u : Uni) (sc : Scope) (x : Str) (cmd : List Arg) (body : List Node) (v : α → TVal) (text : α → Str)
    (val : TVal) (l : List α) (hc : evalCmd u sc cmd = some val) (he : val.elements = some (l.map v))
    (h : ∀ a ∈ l, ∀ w, execNodes u { sc.bind x (v a) with dot := v a } body w = some (w ++ text a)) (w : Str) :
    execNode u sc (.range x cmd body []) w = some (w ++ l.flatMap text) := by
  have : execNode u sc (.range x cmd body []) w = (evalCmd u sc cmd).bind (fun val => val.elements.bind fun es => match es with
    | [] => execNodes u sc [] w
    | vs => rangeLoop (fun v w => execNodes u { sc.bind x v with dot := v } body w) vs w) := rfl
  rw [this, hc]
  show val.elements.bind _ = _
  rw [he]
  cases l with
  | nil => simp [execNodes]
  | cons a l => exact rangeLoop_texts (fun v w => execNodes u { sc.bind x v with dot := v } body w) v text (a :: l) w h

theorem linesOk_nil (toks : List Go.Tok) (h : toks = []) : LinesOk false [] toks := by subst h; exact fun _ => rfl

theorem LinesOk.append {need : Bool} {a b : Str} {k l : List Go.Tok} (ha : LinesOk need a k) (hb : LinesOk false b l) :
    LinesOk need (a ++ b) (k ++ l) := by
  intro ts
  rw [State.run_append, ha, hb]
  simp

theorem linesOk_decls {α : Type} (text : α → Str) (ds : α → List Go.Decl) : ∀ l : List α,
    (∀ a ∈ l, LinesOk false (text a) (putDecls (ds a) [])) → LinesOk false (l.flatMap text) (putDecls (l.flatMap ds) [])
  | [], _ => linesOk_nil _ rfl
  | a :: l, h => by
    rw [List.flatMap_cons, List.flatMap_cons, putDecls_concat]
    exact (h a (by simp)).append (linesOk_decls text ds l fun b hb => h b (by simp [hb]))

theorem linesOk_fields {α : Type} (text : α → Str) (ds : α → List FieldDecl) : ∀ l : List α,
    (∀ a ∈ l, LinesOk false (text a) (putFields (ds a) [])) → LinesOk false (l.flatMap text) (putFields (l.flatMap ds) [])
  | [], _ => linesOk_nil _ rfl
  | a :: l, h => by
    rw [List.flatMap_cons, List.flatMap_cons, putFields_concat]
    exact (h a (by simp)).append (linesOk_fields text ds l fun b hb => h b (by simp [hb]))

theorem linesOk_stmts {α : Type} (text : α → Str) (ds : α → List Stmt) : ∀ l : List α,
    (∀ a ∈ l, LinesOk false (text a) (putStmts (ds a) [])) → LinesOk false (l.flatMap text) (putStmts (l.flatMap ds) [])
  | [], _ => linesOk_nil _ rfl
  | a :: l, h => by
    rw [List.flatMap_cons, List.flatMap_cons, putStmts_concat]
    exact (h a (by simp)).append (linesOk_stmts text ds l fun b hb => h b (by simp [hb]))

/-! ## The order of the methods -/

/-- The methods in the order of their names. -/
def Inputs.sorted (d : Inputs) : List Method := (sortBy (fun a b => decide (a.1 ≤ b.1)) d.methods).map (·.2)

theorem insertSorted_map {α β : Type} (le : α → α → Bool) (le' : β → β → Bool) (g : α → β) (h : ∀ a b, le' (g a) (g b) = le a b)
    (x : α) : ∀ l : List α, insertSorted le' (g x) (l.map g) = (insertSorted le x l).map g
  | [] => rfl
  | y :: l => by
    simp only [List.map_cons, insertSorted, h]
    split
    · rfl
    · rw [insertSorted_map le le' g h x l]; rfl

theorem sortBy_map {α β : Type} (le : α → α → Bool) (le' : β → β → Bool) (g : α → β) (h : ∀ a b, le' (g a) (g b) = le a b) :
    ∀ l : List α, sortBy le' (l.map g) = (sortBy le l).map g
  | [] => rfl
  | x :: l => by
    simp only [List.map_cons, sortBy]
    rw [sortBy_map le le' g h l, insertSorted_map le le' g h]

/-- The elements of `.Interface.Methods`. -/
theorem methods_elements (d : Inputs) :
    (TVal.map (d.methods.map fun e => (e.1, TVal.method e.2))).elements = some (d.sorted.map TVal.method) := by
  show some _ = _
  rw [sortBy_map (fun (a b : Str × Method) => decide (a.1 ≤ b.1)) _ (fun e => (e.1, TVal.method e.2)) (fun _ _ => rfl)]
  simp [Inputs.sorted, List.map_map, Function.comp_def]

/-! ## Results of checks by computation -/

/-- The pieces of a text. -/
def piecesOf (sh : Shape) (ns : List Node) : List Piece := (symNodes sh ns).getD []

/-- The state of the symbolic lexer after a text. -/
def symRun (f : Fill) (need : Bool) (ps : List Piece) : SState Hole :=
  SState.run f.sub ⟨.start, some need, []⟩ (flatten f.m.hasResults ps)

/-- What is checked by computation for a part of a template: its text, and that the lexer ends between lines. -/
structure Checked (f : Fill) (sc : Scope) (ns : List Node) (need : Bool) (ps : List Piece) : Prop where
  exec : ∀ w, execNodes f.u sc (fillLoops f ns) w = some (writePieces f ps w)
  mode : (symRun f need ps).mode = .start
  semi : (symRun f need ps).semi = some false

/-- The text of the pieces. -/
def textOf (f : Fill) (ps : List Piece) : Str := f.sub.expand (flatten f.m.hasResults ps)

/-- Its tokens. -/
def toksOf (f : Fill) (need : Bool) (ps : List Piece) : List Go.Tok := Parse.fwd f (symRun f need ps).toks.reverse

theorem Checked.text {f : Fill} {sc : Scope} {ns : List Node} {need : Bool} {ps : List Piece} (h : Checked f sc ns need ps)
    (P : Scope → Prop) (hp : P sc) (hd : ∀ x ∈ (loopsOf ns).2, ∀ sc v, P sc → P (sc.bind x v))
    (hl : ∀ r ∈ (loopsOf ns).1, ∀ sc, P sc → ∀ w, execNode f.u sc r w = some (w ++ nodeText f r)) (w : Str) :
    execNodes f.u sc ns w = some (w ++ textOf f ps) := by
  rw [exec_fillLoops f P ns hd hl sc hp w, h.exec, writePieces_sound f ps w]
  rfl

theorem lines_of_mode {f : Fill} (hf : f.Good) (need : Bool) (ps : List Piece) (h1 : (symRun f need ps).mode = .start)
    (h2 : (symRun f need ps).semi = some false) : LinesOk need (textOf f ps) (toksOf f need ps) := by
  refine lines_of_sym hf _ need _ ?_
  unfold symRun at h1 h2 ⊢
  generalize SState.run f.sub ⟨.start, some need, []⟩ (flatten f.m.hasResults ps) = s at h1 h2 ⊢
  obtain ⟨m, s, t⟩ := s
  cases h1
  cases h2
  rfl

theorem Checked.lines {f : Fill} {sc : Scope} {ns : List Node} {need : Bool} {ps : List Piece} (h : Checked f sc ns need ps)
    (hf : f.Good) : LinesOk need (textOf f ps) (toksOf f need ps) := lines_of_mode hf need ps h.mode h.semi

/-- The declarations that consist of the tokens. -/
def declsOf (f : Fill) (ps : List Piece) : List Go.Decl := (Parse.decls f 400 (symRun f false ps).toks.reverse).getD []

/-- The statements that consist of the tokens. -/
def stmtsOf (f : Fill) (need : Bool) (ps : List Piece) : List Stmt :=
  match Parse.stmts f 400 ((symRun f need ps).toks.reverse ++ [.op g!"}"]) with
  | some (ss, _) => ss
  | none => []

end Gowrap.Tmpl
