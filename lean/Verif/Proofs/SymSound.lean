import Verif.Proofs.SymFillOk
import Verif.Proofs.SymParse
/-!
# The text of the pieces and its tokens
-/

namespace Gowrap.Tmpl

open Gowrap Go

theorem expand_chars (f : Fill) (s : Str) : f.sub.expand (chars s) = s := by
  induction s with
  | nil => rfl
  | cons c s ih => show c :: f.sub.expand (chars s) = _; rw [ih]

theorem expand_callFlat (f : Fill) : f.sub.expand callFlat = f.m.call := by
  show f.m.name ++ ('(' :: (join g!", " (f.m.params.map Param.pass) ++ [')'])) = _
  simp [Method.call]

theorem Piece.text_flat (f : Fill) (p : Piece) : p.text f = f.sub.expand (p.flat f.m.hasResults) := by
  cases p with
  | lit s => exact (expand_chars f s).symm
  | hole h => rfl
  | call => exact (expand_callFlat f).symm
  | decl =>
    show f.m.declaration = f.m.name ++ ('(' :: (join g!", " (f.m.params.map fun p => p.name ++ g!" " ++ p.type) ++ ')' :: ' ' :: '(' ::
      (join g!", " (f.m.results.map fun p => p.name ++ g!" " ++ p.type) ++ [')'])))
    simp [Method.declaration, Method.signature]
  | pass pre =>
    show f.m.pass _ = f.sub.expand (bif f.m.hasResults then chars g!"return " ++ (pre ++ callFlat) else pre ++ (callFlat ++ chars g!"\nreturn"))
    cases hr : f.m.hasResults with
    | true =>
      have : f.m.results.length > 0 := by simpa [Method.hasResults] using hr
      simp only [cond_true, expand_append, expand_chars, expand_callFlat]
      unfold Method.pass
      rw [if_pos this, List.append_assoc]
    | false =>
      have : ¬ f.m.results.length > 0 := by simpa [Method.hasResults] using hr
      simp only [cond_false, expand_append, expand_chars, expand_callFlat]
      unfold Method.pass
      rw [if_neg this, List.append_assoc]
  | retStruct =>
    show f.m.returnStruct _ = f.sub.expand (bif f.m.hasResults then chars g!"return " ++ [.h .resFields] else chars g!"return")
    cases hr : f.m.hasResults with
    | true =>
      have : ¬ f.m.results.length = 0 := by
        have : f.m.results.length > 0 := by simpa [Method.hasResults] using hr
        omega
      simp only [cond_true, expand_append, expand_chars]
      unfold Method.returnStruct
      rw [if_neg this]
      rfl
    | false =>
      have : f.m.results.length = 0 := by
        have : ¬ f.m.results.length > 0 := by simpa [Method.hasResults] using hr
        omega
      simp only [cond_false, expand_chars]
      unfold Method.returnStruct
      rw [if_pos this]
  | spanName => show f.component ++ '.' :: (f.m.name ++ []) = f.component ++ '.' :: f.m.name; simp

theorem writePieces_sound (f : Fill) : ∀ (ps : List Piece) (w : Str),
    writePieces f ps w = w ++ f.sub.expand (flatten f.m.hasResults ps) := by
  intro ps
  induction ps with
  | nil => intro w; simp [writePieces, flatten, Subst.expand]
  | cons p ps ih =>
    intro w
    have e : f.sub.expand (flatten f.m.hasResults (p :: ps)) = p.text f ++ f.sub.expand (flatten f.m.hasResults ps) := by
      show f.sub.expand (p.flat _ ++ _) = _
      rw [expand_append, ← Piece.text_flat]
    rw [e, ← List.append_assoc]
    exact ih _

/-- What a loop writes. -/
def nodeText (f : Fill) : Node → Str
  | .range x _ body _ => f.htext (loopHole x body)
  | _ => []

mutual

/-- The loops may be replaced by what they write. -/
theorem exec_fillLoop (f : Fill) (P : Scope → Prop) : ∀ (n : Node),
    (∀ x ∈ (loopsIn n).2, ∀ sc v, P sc → P (sc.bind x v)) →
    (∀ r ∈ (loopsIn n).1, ∀ sc, P sc → ∀ w, execNode f.u sc r w = some (w ++ nodeText f r)) →
    ∀ sc, P sc → ∀ w, execNode f.u sc n w = execNode f.u sc (fillLoop f n) w
  | .text _, _, _, _, _, _ => rfl
  | .print _, _, _, _, _, _ => rfl
  | .declare _ _, _, _, _, _, _ => rfl
  | .cond cmd yes no, hd, hl, sc, hs, w => by
    show (evalCmd f.u sc cmd).bind (fun v => if v.opaque then none else if v.truth then execNodes f.u sc yes w else execNodes f.u sc no w) =
      (evalCmd f.u sc cmd).bind (fun v => if v.opaque then none else if v.truth then execNodes f.u sc (fillLoops f yes) w
        else execNodes f.u sc (fillLoops f no) w)
    rw [exec_fillLoops f P yes (fun x hx => hd x (by simp [loopsIn, hx])) (fun r hr => hl r (by simp [loopsIn, hr])) sc hs w,
      exec_fillLoops f P no (fun x hx => hd x (by simp [loopsIn, hx])) (fun r hr => hl r (by simp [loopsIn, hr])) sc hs w]
  | .range x cmd body no, _, hl, sc, hs, w => hl _ (by simp [loopsIn]) sc hs w
  | .each _ _ _, _, _, _, _, _ => rfl
  | .with_ _ _ _, _, _, _, _, _ => rfl

theorem exec_fillLoops (f : Fill) (P : Scope → Prop) : ∀ (ns : List Node),
    (∀ x ∈ (loopsOf ns).2, ∀ sc v, P sc → P (sc.bind x v)) →
    (∀ r ∈ (loopsOf ns).1, ∀ sc, P sc → ∀ w, execNode f.u sc r w = some (w ++ nodeText f r)) →
    ∀ sc, P sc → ∀ w, execNodes f.u sc ns w = execNodes f.u sc (fillLoops f ns) w
  | [], _, _, _, _, _ => rfl
  | .declare x cmd :: ns, hd, hl, sc, hs, w => by
    show (evalCmd f.u sc cmd).bind (fun v => execNodes f.u (sc.bind x v) ns w) =
      (evalCmd f.u sc cmd).bind (fun v => execNodes f.u (sc.bind x v) (fillLoops f ns) w)
    congr 1
    funext v
    exact exec_fillLoops f P ns (fun x hx => hd x (by simp [loopsOf, hx])) (fun r hr => hl r (by simp [loopsOf, hr])) _
      (hd x (by simp [loopsOf, loopsIn]) sc v hs) w
  | .text s :: ns, hd, hl, sc, hs, w =>
    exec_fillLoops f P ns (fun x hx => hd x (by simp [loopsOf, hx])) (fun r hr => hl r (by simp [loopsOf, hr])) sc hs (w ++ s)
  | .print cmd :: ns, hd, hl, sc, hs, w => by
    show (execNode f.u sc (.print cmd) w).bind (execNodes f.u sc ns) = (execNode f.u sc (.print cmd) w).bind (execNodes f.u sc (fillLoops f ns))
    congr 1
    funext w'
    exact exec_fillLoops f P ns (fun x hx => hd x (by simp [loopsOf, hx])) (fun r hr => hl r (by simp [loopsOf, hr])) sc hs w'
  | .cond cmd yes no :: ns, hd, hl, sc, hs, w => by
    show (execNode f.u sc (.cond cmd yes no) w).bind (execNodes f.u sc ns) =
      (execNode f.u sc (fillLoop f (.cond cmd yes no)) w).bind (execNodes f.u sc (fillLoops f ns))
    rw [exec_fillLoop f P (.cond cmd yes no) (fun x hx => hd x (by simp [loopsOf, hx])) (fun r hr => hl r (by simp [loopsOf, hr])) sc hs w]
    congr 1
    funext w'
    exact exec_fillLoops f P ns (fun x hx => hd x (by simp [loopsOf, hx])) (fun r hr => hl r (by simp [loopsOf, hr])) sc hs w'
  | .range x cmd body no :: ns, hd, hl, sc, hs, w => by
    show (execNode f.u sc (.range x cmd body no) w).bind (execNodes f.u sc ns) = execNodes f.u sc (fillLoops f ns) _
    rw [hl _ (by simp [loopsOf, loopsIn]) sc hs w]
    exact exec_fillLoops f P ns (fun x hx => hd x (by simp [loopsOf, hx])) (fun r hr => hl r (by simp [loopsOf, hr])) sc hs _
  | .each cmd body no :: ns, hd, hl, sc, hs, w => by
    show (execNode f.u sc (.each cmd body no) w).bind (execNodes f.u sc ns) =
      (execNode f.u sc (.each cmd body no) w).bind (execNodes f.u sc (fillLoops f ns))
    congr 1
    funext w'
    exact exec_fillLoops f P ns (fun x hx => hd x (by simp [loopsOf, hx])) (fun r hr => hl r (by simp [loopsOf, hr])) sc hs w'
  | .with_ cmd yes no :: ns, hd, hl, sc, hs, w => by
    show (execNode f.u sc (.with_ cmd yes no) w).bind (execNodes f.u sc ns) =
      (execNode f.u sc (.with_ cmd yes no) w).bind (execNodes f.u sc (fillLoops f ns))
    congr 1
    funext w'
    exact exec_fillLoops f P ns (fun x hx => hd x (by simp [loopsOf, hx])) (fun r hr => hl r (by simp [loopsOf, hr])) sc hs w'

end

theorem fwd_append (f : Fill) : ∀ a b, Parse.fwd f (a ++ b) = Parse.fwd f a ++ Parse.fwd f b := by
  intro a b
  induction a with
  | nil => rfl
  | cons t a ih => cases t <;> simp [Parse.fwd, ih]

theorem revToks_fwd (f : Fill) (l : List (STok Hole)) : f.sub.revToks l = (Parse.fwd f l.reverse).reverse := by
  induction l with
  | nil => rfl
  | cons t l ih =>
    rw [List.reverse_cons, fwd_append, List.reverse_append, ← ih]
    show (f.sub.tok t).reverse ++ _ = _
    cases t with
    | hole h =>
      show (f.htoks h).reverse ++ _ = (f.htoks h ++ []).reverse ++ _
      rw [List.append_nil]
    | _ => rfl

/-- The tokens of a text that ends with a line, from the run of the symbolic lexer. -/
theorem lines_of_sym {f : Fill} (hf : f.Good) (fl : List (Sym Hole)) (need : Bool) (toks : List (STok Hole))
    (h : SState.run f.sub ⟨.start, some need, []⟩ fl = ⟨.start, some false, toks⟩) :
    LinesOk need (f.sub.expand fl) (Parse.fwd f toks.reverse) := by
  have hr : Rel f.sub ⟨.start, some need, []⟩ ⟨.start, need, []⟩ := ⟨rfl, fun b hb => Option.some.inj hb, rfl⟩
  have := run_sound f.sub hf.ok fl _ _ hr (by rw [h]; trivial)
  rw [h] at this
  obtain ⟨h1, h2, h3⟩ := this
  simp only at h1 h2 h3
  intro ts
  rw [run_base]
  generalize State.run ⟨.start, need, []⟩ (f.sub.expand fl) = r at h1 h2 h3
  obtain ⟨m, s, t⟩ := r
  simp only at h1 h2 h3
  subst h3
  cases h2 false rfl
  show State.mk _ _ (t ++ ts) = _
  rw [h1, revToks_fwd]

end Gowrap.Tmpl
