import Verif.Spec.Accepted
import Verif.Proofs.SourceLex
import Verif.Proofs.TypeTextMain
/-!
# Printed types are Go types
-/

namespace Gowrap.Go

open Gowrap Spec

/-- The characters with which a type begins. -/
def TypeStart (c : Char) : Prop := letter c = true ∨ c = '*' ∨ c = '[' ∨ c = '(' ∨ c = '<' ∨ c = '.'

theorem TypeStart.ne {c : Char} (h : TypeStart c) : c ∉ [' ', '\t', '\r', '\n', '/'] := by
  rcases h with h | rfl | rfl | rfl | rfl | rfl
  · intro hc
    simp only [List.mem_cons, List.not_mem_nil, or_false] at hc
    rcases hc with rfl | rfl | rfl | rfl | rfl <;> revert h <;> decide
  all_goals decide

/-- The text of a type. -/
structure TypePiece (s : Str) (l : List Tok) : Prop where
  begins : ∃ c r, s = c :: r ∧ TypeStart c
  ends : ∃ ts t, l = ts ++ [t] ∧ EndsType t
  item : Item true s l

theorem item_not_dots {s : Str} {l : List Tok} (h : Item true s l) (sm : Bool) (ts : List Tok) :
    (State.run ⟨.start, sm, ts⟩ s).mode = .start ∨ ∃ acc, (State.run ⟨.start, sm, ts⟩ s).mode = .word acc := by
  obtain ⟨h1, _, h3⟩ := h sm ts
  rcases h1 with h1 | h1 | h1
  · exact .inl h1
  · exact .inr h1
  · have := h3 rfl
    unfold State.flush at this
    rw [h1] at this
    exact absurd (show false = true from this) (by decide)

/-- The text, followed by a bracket. -/
theorem item_tokens {s : Str} {l : List Tok} (h : Item true s l) : tokens s = some (l ++ [.op g!";"]) := by
  obtain ⟨h1, h2, h3⟩ := h false []
  have hm := resting_flush _ h1
  unfold tokens
  rw [show (State.run ⟨.start, false, []⟩ s).flush = ⟨.start, true, l.reverse ++ []⟩ from by
    have h3 := h3 rfl
    generalize (State.run ⟨.start, false, []⟩ s).flush = r at *
    obtain ⟨m, sm, t⟩ := r
    simp_all]
  simp

theorem resting_single (r : State) (h : r.Resting) (c : Char) (hc : single c = true) :
    r.step c = ⟨.start, opEnds [c], .op [c] :: r.flush.toks⟩ := by
  have hc' : (letter c || digit c) = false ∧ c ≠ '\n' ∧ c ≠ ' ' ∧ c ≠ '\t' ∧ c ≠ '\r' ∧ c ≠ '"' := by
    unfold single at hc
    simp only [Bool.or_eq_true, decide_eq_true_eq] at hc
    rcases hc with ((((((rfl | rfl) | rfl) | rfl) | rfl) | rfl) | rfl) | rfl <;> decide
  rw [resting_step r h c hc'.1]
  have := resting_flush r h
  generalize r.flush = r' at this
  obtain ⟨m, s, t⟩ := r'
  cases this
  unfold State.first
  have hl := hc'.1
  simp only [Bool.or_eq_false_iff] at hl
  rw [if_neg hc'.2.1, if_neg (by simp [hc'.2.2.1, hc'.2.2.2.1, hc'.2.2.2.2.1]), if_neg (by simp [hl.1]), if_neg (by simp [hl.2]),
    if_neg hc'.2.2.2.2.2, if_pos hc]

theorem item_tokens_paren {s : Str} {l : List Tok} (h : Item true s l) : tokens (s ++ g!")") = some (l ++ [.op g!")", .op g!";"]) := by
  obtain ⟨h1, h2, h3⟩ := h false []
  unfold tokens
  rw [State.run_append]
  rw [show (State.run (State.run ⟨.start, false, []⟩ s) g!")") = ⟨.start, true, .op g!")" :: (l.reverse ++ [])⟩ from by
    rw [← h2]; exact resting_single _ h1 ')' rfl]
  simp [State.flush]

theorem TypePiece.source {s : Str} {l : List Tok} (h : TypePiece s l) : TypeSource s := by
  obtain ⟨ts, t, rfl, he⟩ := h.ends
  obtain ⟨c, r, rfl, hc⟩ := h.begins
  refine ⟨⟨c, r, rfl, hc.ne⟩, ts, t, he, ?_, ?_⟩
  · rw [item_tokens h.item]; simp
  · rw [item_tokens_paren h.item]; simp

theorem TypePiece.toks {s : Str} {l : List Tok} (h : TypePiece s l) : typeToks s = l := by
  unfold typeToks
  rw [item_tokens h.item]
  simp

theorem _root_.Gowrap.Spec.Enclosed.not_dots {l : List Tok} (h : Enclosed l) (r : List Tok) : l ≠ .op g!"..." :: r := by
  obtain ⟨p, _, rfl | rfl⟩ := h <;> intro e <;> exact nomatch e

/-- A text that is copied. -/
theorem TypePiece.copied {s : Str} (h : CopiedType s) : TypePiece s (typeToks s) := by
  obtain ⟨h1, ⟨c, r, rfl, hc⟩, _⟩ := h
  have hi := (Tmpl.typeText_of h1).item
  obtain ⟨_, ts, t, he, h2, h3⟩ := h1
  have e : typeToks (c :: r) = Tmpl.lexed (c :: r) := by
    unfold typeToks
    rw [item_tokens hi]
    simp
  rw [e]
  refine ⟨⟨c, r, rfl, ?_⟩, ⟨ts, t, ?_, he⟩, hi⟩
  · rcases hc with hc | rfl
    · exact .inl hc
    · exact .inr (.inr (.inr (.inl rfl)))
  · rw [← e]
    unfold typeToks
    rw [h2]
    simp

/-- A text that ends at the beginning of a token. -/
def Lead (p : Str) (l : List Tok) : Prop := ∀ sm ts, ∃ b, State.run ⟨.start, sm, ts⟩ p = ⟨.start, b, l.reverse ++ ts⟩

theorem Item.lead {p s : Str} {a l : List Tok} {need : Bool} (hp : Lead p a) (h : Item need s l) : Item need (p ++ s) (a ++ l) := by
  intro sm ts
  obtain ⟨b, e⟩ := hp sm ts
  rw [State.run_append, e]
  obtain ⟨h1, h2, h3⟩ := h b (a.reverse ++ ts)
  exact ⟨h1, by rw [h2]; simp, h3⟩

theorem Lead.append {p q : Str} {a b : List Tok} (hp : Lead p a) (hq : Lead q b) : Lead (p ++ q) (a ++ b) := by
  intro sm ts
  obtain ⟨x, e⟩ := hp sm ts
  rw [State.run_append, e]
  obtain ⟨y, e⟩ := hq x (a.reverse ++ ts)
  exact ⟨y, by rw [e]; simp⟩

theorem Item.single {s : Str} {l : List Tok} {need : Bool} (h : Item need s l) (c : Char) (hc : Go.single c = true) :
    Lead (s ++ [c]) (l ++ [.op [c]]) := by
  intro sm ts
  obtain ⟨h1, h2, _⟩ := h sm ts
  exact ⟨opEnds [c], by rw [State.run_append]; show State.step _ c = _; rw [resting_single _ h1 c hc, h2]; simp⟩

/-- A text that ends with a closing bracket. -/
theorem Lead.close {s : Str} {l : List Tok} {need : Bool} (h : Item need s l) (c : Char) (hc : Go.single c = true) (he : opEnds [c] = true) :
    Item true (s ++ [c]) (l ++ [.op [c]]) := by
  intro sm ts
  obtain ⟨h1, h2, _⟩ := h sm ts
  have : State.run ⟨.start, sm, ts⟩ (s ++ [c]) = ⟨.start, true, .op [c] :: (l.reverse ++ ts)⟩ := by
    rw [State.run_append]; show State.step _ c = _; rw [resting_single _ h1 c hc, h2, he]
  rw [this]
  exact ⟨.inl rfl, by simp [State.flush], fun _ => rfl⟩

theorem item_nil : Item false [] [] := fun _ _ => ⟨.inl rfl, rfl, nofun⟩

/-- A pointer. -/
theorem item_star {s : Str} {l : List Tok} (hb : ∃ c r, s = c :: r ∧ TypeStart c) (h : Item true s l) : Item true (g!"*" ++ s) (.op g!"*" :: l) := by
  obtain ⟨c, r, rfl, hc⟩ := hb
  intro sm ts
  have e : State.run ⟨.start, sm, ts⟩ (g!"*" ++ c :: r) = State.run ⟨.start, false, .op g!"*" :: ts⟩ (c :: r) := by
    show State.run (State.step ⟨.op g!"*", sm, ts⟩ c) r = State.run (State.step ⟨.start, false, .op g!"*" :: ts⟩ c) r
    congr 1
    rcases hc with hc | rfl | rfl | rfl | rfl | rfl
    · rw [step_op_letter _ _ _ c hc (by decide)]
      rfl
    all_goals rfl
  rw [e]
  obtain ⟨h1, h2, h3⟩ := h false (.op g!"*" :: ts)
  exact ⟨h1, by rw [h2]; simp, h3⟩

/-- A variadic parameter. -/
theorem item_dots {s : Str} {l : List Tok} (hb : ∃ c r, s = c :: r ∧ TypeStart c) (h : Item true s l) : Item true (g!"..." ++ s) (.op g!"..." :: l) := by
  obtain ⟨c, r, rfl, hc⟩ := hb
  intro sm ts
  have e : State.run ⟨.start, sm, ts⟩ (g!"..." ++ c :: r) = State.run ⟨.start, false, .op g!"..." :: ts⟩ (c :: r) := by
    show State.run (State.step ⟨.op g!"...", sm, ts⟩ c) r = State.run (State.step ⟨.start, false, .op g!"..." :: ts⟩ c) r
    rw [step_op_dots sm ts c]
    rfl
  rw [e]
  obtain ⟨h1, h2, h3⟩ := h false (.op g!"..." :: ts)
  exact ⟨h1, by rw [h2]; simp, h3⟩

theorem sep_newline : Separates true g!"\n" g!";" := by
  intro r h hs
  show State.step r '\n' = _
  rw [resting_step r h '\n' (by decide)]
  have := resting_flush r h
  have hs := hs rfl
  generalize r.flush = r' at this hs
  obtain ⟨m, s, t⟩ := r'
  cases this
  cases hs
  rfl

theorem commaToks_eq : ∀ l : List (List Tok), commaToks l = sepToks g!"," l
  | [] => rfl
  | [_] => rfl
  | a :: b :: l => by
    show a ++ .op g!"," :: commaToks (b :: l) = a ++ .op g!"," :: sepToks g!"," (b :: l)
    rw [commaToks_eq (b :: l)]

theorem sepToks_ends (l : List (List Tok)) (h : l ≠ []) : sepToks g!";" l ++ [.op g!";"] = l.flatMap (· ++ [.op g!";"]) := by
  induction l with
  | nil => exact absurd rfl h
  | cons a l ih =>
    cases l with
    | nil => simp [sepToks]
    | cons b l =>
      show (a ++ .op g!";" :: sepToks g!";" (b :: l)) ++ _ = _
      rw [List.flatMap_cons, ← ih (by simp)]
      simp

/-- Names and a type. -/
theorem item_field {names : List Str} (hn : ∀ x ∈ names, GoName x) {s : Str} {l : List Tok} (h : Item true s l) :
    Item true (join g!", " names ++ g!" " ++ s) (fieldToks (names, l)) := by
  unfold fieldToks
  refine Item.lead ?_ h
  cases names with
  | nil => exact fun sm ts => ⟨sm, rfl⟩
  | cons x xs =>
    have := item_join true g!", " g!"," (sep_comma true) ((x :: xs).map fun y => (y, [Tok.word y])) (by
      intro y hy
      obtain ⟨z, hz, rfl⟩ := List.mem_map.mp hy
      exact Item.name z (Tmpl.name_of (hn z hz))) (by simp)
    rw [List.map_map, List.map_map] at this
    have e : ((x :: xs).map ((fun x => x.1) ∘ fun y => (y, [Tok.word y]))) = x :: xs := by
      show (x :: xs).map (fun y => y) = _
      simp
    rw [e] at this
    intro sm ts
    obtain ⟨h1, h2, h3⟩ := this sm ts
    refine ⟨true, ?_⟩
    rw [State.run_append]
    show State.step _ ' ' = _
    rw [resting_step _ h1 ' ' (by decide)]
    have hm := resting_flush _ h1
    have h3 := h3 rfl
    rw [commaToks_eq]
    generalize (State.run ⟨.start, sm, ts⟩ (join g!", " (x :: xs))).flush = r at *
    obtain ⟨m, s', t⟩ := r
    cases hm
    cases h3
    cases h2
    rfl

/-- A struct. -/
theorem item_struct (fs : List (Str × List Tok)) (h : ∀ f ∈ fs, Item true f.1 f.2) :
    Item true (g!"struct{\n" ++ join g!"\n" (fs.map (·.1)) ++ g!"\n}")
      (.word g!"struct" :: .op g!"{" :: ((fs.flatMap fun f => f.2 ++ [.op g!";"]) ++ [.op g!"}"])) := by
  have hl : Lead g!"struct{\n" [.word g!"struct", .op g!"{"] := fun sm ts => ⟨false, rfl⟩
  have e : g!"struct{\n" ++ join g!"\n" (fs.map (·.1)) ++ g!"\n}" = g!"struct{\n" ++ (join g!"\n" (fs.map (·.1)) ++ g!"\n}") := by simp
  rw [e]
  by_cases h0 : fs = []
  · subst h0
    intro sm ts
    exact ⟨.inl rfl, rfl, fun _ => rfl⟩
  · refine Item.lead (a := [.word g!"struct", .op g!"{"]) hl ?_
    have hj := item_join true g!"\n" g!";" sep_newline fs h (fun _ => h0)
    intro sm ts
    obtain ⟨h1, h2, h3⟩ := hj sm ts
    have e : State.run ⟨.start, sm, ts⟩ (join g!"\n" (fs.map (·.1)) ++ g!"\n}") =
        ⟨.start, true, .op g!"}" :: .op g!";" :: ((sepToks g!";" (fs.map (·.2))).reverse ++ ts)⟩ := by
      rw [State.run_append]
      show State.step (State.run _ g!"\n") '}' = _
      rw [sep_newline _ h1 h3, h2]
      rfl
    rw [e]
    refine ⟨.inl rfl, ?_, fun _ => rfl⟩
    have : (fs.flatMap fun f => f.2 ++ [Tok.op g!";"]) = sepToks g!";" (fs.map (·.2)) ++ [.op g!";"] := by
      rw [sepToks_ends _ (by simpa using h0), List.flatMap_map]
    rw [this]
    simp [State.flush]

/-- A function type. -/
theorem item_func (ps rs : List (Str × List Tok)) (hp : ∀ f ∈ ps, Item true f.1 f.2) (hr : ∀ f ∈ rs, Item true f.1 f.2) :
    Item true (g!"func(" ++ join g!", " (ps.map (·.1)) ++ g!") (" ++ join g!", " (rs.map (·.1)) ++ g!")")
      (.word g!"func" :: .op g!"(" :: (commaToks (ps.map (·.2)) ++
        .op g!")" :: .op g!"(" :: (commaToks (rs.map (·.2)) ++ [.op g!")"]))) := by
  have hl : Lead g!"func(" [.word g!"func", .op g!"("] := fun sm ts => ⟨false, rfl⟩
  have h1 := item_join false g!", " g!"," (sep_comma false) ps (fun f hf => (hp f hf).weaken false) nofun
  have h2 := item_join false g!", " g!"," (sep_comma false) rs (fun f hf => (hr f hf).weaken false) nofun
  have hm : Lead g!" (" [.op g!"("] := fun sm ts => ⟨false, rfl⟩
  have := ((hl.append ((h1.single ')' rfl).append hm)))
  have := Item.lead this (Lead.close h2 ')' rfl rfl)
  rw [commaToks_eq, commaToks_eq]
  simpa using this

end Gowrap.Go

namespace Gowrap

open Spec Go

/-- Not the type of a variadic parameter. -/
def NoDots (l : List Go.Tok) : Prop := ∀ r, l ≠ .op g!"..." :: r

/-- A type name, possibly with type arguments. -/
def SrcBase : Expr → Prop
  | .ident _ | .selector _ _ | .index _ _ | .indexList _ _ => True
  | _ => False

def BaseToks (l : List Go.Tok) : Prop := ∃ n r, IsTypeNameToks n ∧ l = n ++ r ∧ (r = [] ∨ ∃ r', r = .op g!"[" :: r')

theorem BaseToks.embedded {l : List Go.Tok} (h : BaseToks l) : EmbeddedToks l := by
  obtain ⟨n, r, h1, h2, h3⟩ := h
  exact ⟨n, r, h1, .inl h2, h3⟩

theorem BaseToks.pointer {l : List Go.Tok} (h : BaseToks l) : EmbeddedToks (.op g!"*" :: l) := by
  obtain ⟨n, r, h1, rfl, h3⟩ := h
  exact ⟨n, r, h1, .inr rfl, h3⟩

/-- The text `s` of the type expression `e` consists of the tokens `l`. -/
structure PrintedAs (K : Copied) (v : Prop) (e : Expr) (s : Str) (l : List Go.Tok) : Prop where
  piece : TypePiece s l
  kind : (isEllipsis e = false ∧ IsType K l ∧ NoDots l) ∨ (v ∧ isEllipsis e = true ∧ ∃ r, l = .op g!"..." :: r ∧ IsType K r)
  base : SrcBase e → BaseToks l
  embedded : SrcEmbedded e → EmbeddedToks l

theorem PrintedAs.type {K : Copied} {e : Expr} {s : Str} {l : List Go.Tok} (h : PrintedAs K False e s l) : IsType K l := by
  rcases h.kind with h | h
  · exact h.2.1
  · exact h.1.elim

structure PrefOk (env : PrintEnv) : Prop where
  pref : env.pref = [] ∨ GoName env.pref

/-- The text of a type name. -/
theorem piece_name {x : Str} (h : GoName x) : TypePiece x [.word x] := by
  refine ⟨?_, ⟨[], _, rfl, .inl ⟨_, rfl⟩⟩, Item.name x (Tmpl.name_of h)⟩
  obtain ⟨⟨c, r, e, hc⟩, _⟩ := h
  exact ⟨c, r, e, .inl hc⟩

theorem piece_qualified {p x : Str} (hp : GoName p) (hx : GoName x) : TypePiece (p ++ g!"." ++ x) [.word p, .op g!".", .word x] := by
  refine ⟨?_, ⟨[.word p, .op g!"."], _, rfl, .inl ⟨_, rfl⟩⟩, ?_⟩
  · obtain ⟨⟨c, r, rfl, hc⟩, _⟩ := hp
    exact ⟨c, r ++ g!"." ++ x, rfl, .inl hc⟩
  · intro sm ts
    have hp' := Tmpl.name_of hp
    have hx' := Tmpl.name_of hx
    rw [List.append_assoc, State.run_append, run_name p hp'.1, State.run_append]
    have e : State.run ⟨.word p.reverse, sm, ts⟩ g!"." = ⟨.op g!".", true, .word p :: ts⟩ := by
      show State.step ⟨.word p.reverse, sm, ts⟩ '.' = _
      rw [resting_step _ (.inr (.inl ⟨_, rfl⟩)) '.' (by decide)]
      simp only [State.flush, List.reverse_reverse, name_ends p hp']
      rfl
    rw [e]
    have e2 : State.run ⟨.op g!".", true, .word p :: ts⟩ x = ⟨.word x.reverse, false, .op g!"." :: .word p :: ts⟩ := by
      obtain ⟨⟨c, w, rfl, hc⟩, hall⟩ := hx'.1
      show State.run (State.step _ c) w = _
      rw [step_op_letter _ _ _ c hc (by decide)]
      show State.run (State.first _ c) w = _
      rw [first_letter _ c hc, run_word _ _ _ w (fun y hy => hall y (by simp [hy]))]
      simp [State.flush, opEnds]
    rw [e2]
    exact ⟨.inr (.inl ⟨_, rfl⟩), by simp [State.flush], by simp [State.flush, name_ends x hx']⟩

theorem print_name {env : PrintEnv} (he : PrefOk env) : ∀ {e : Expr} {s : Str}, SrcName env.raw e → printType env e = .ok s →
    ∃ l, TypePiece s l ∧ IsTypeNameToks l
  | .ident n, s, hn, h => by
    simp only [SrcName] at hn
    simp only [printType, printIdent] at h
    split at h
    · split at h
      · split at h
        · cases h
        · cases h
        · cases h
          rename_i hl _ _
          have hp : GoName env.pref := by
            rcases he.pref with hp | hp
            · rw [hp] at hl; exact absurd hl (by simp)
            · exact hp
          exact ⟨_, piece_qualified hp hn.1, .qualified hp hn.1⟩
      · cases h
        exact ⟨_, piece_name hn.1, .name hn.1⟩
    · rw [hn.2] at h
      cases h
      exact ⟨_, piece_name hn.1, .name hn.1⟩
  | .selector (.ident a) b, s, hn, h => by
    simp only [SrcName] at hn
    simp only [printType, hn.2.2] at h
    cases h
    exact ⟨_, piece_qualified hn.1 hn.2.1, .qualified hn.1 hn.2.1⟩

theorem nameToks_noDots {l : List Go.Tok} (h : IsTypeNameToks l) (r : List Go.Tok) : NoDots (l ++ r) := by
  intro r' e
  cases h <;> exact nomatch e

theorem ends_cons {t : Go.Tok} {l : List Go.Tok} (h : ∃ ts u, l = ts ++ [u] ∧ EndsType u) : ∃ ts u, t :: l = ts ++ [u] ∧ EndsType u := by
  obtain ⟨ts, u, rfl, hu⟩ := h
  exact ⟨t :: ts, u, rfl, hu⟩

theorem ends_append {k l : List Go.Tok} (h : ∃ ts u, l = ts ++ [u] ∧ EndsType u) : ∃ ts u, k ++ l = ts ++ [u] ∧ EndsType u := by
  obtain ⟨ts, u, rfl, hu⟩ := h
  exact ⟨k ++ ts, u, by simp, hu⟩

/-- A fixed text before a type. -/
theorem piece_lead {p s : Str} {a l : List Go.Tok} (hp : Lead p a) (hb : ∃ c r, p = c :: r ∧ TypeStart c) (h : TypePiece s l) :
    TypePiece (p ++ s) (a ++ l) := by
  obtain ⟨c, r, rfl, hc⟩ := hb
  exact ⟨⟨c, r ++ s, rfl, hc⟩, ends_append h.ends, h.item.lead hp⟩

/-- A type with type arguments. -/
theorem piece_inst {t : Str} {l : List Go.Tok} (h : TypePiece t l) (args : List (Str × List Go.Tok)) (ha : ∀ a ∈ args, Item true a.1 a.2) :
    TypePiece (t ++ g!"[" ++ join g!", " (args.map (·.1)) ++ g!"]") (l ++ .op g!"[" :: (commaToks (args.map (·.2)) ++ [.op g!"]"])) := by
  refine ⟨?_, ends_append (ends_cons (ends_append ⟨[], _, rfl, .inr (.inr (.inl rfl))⟩)), ?_⟩
  · obtain ⟨c, r, rfl, hc⟩ := h.begins
    exact ⟨c, _, rfl, hc⟩
  · have h1 := h.item.single '[' rfl
    have h2 := item_join false g!", " g!"," (sep_comma false) args (fun a h => (ha a h).weaken false) nofun
    have := Item.lead h1 (Lead.close h2 ']' rfl rfl)
    rw [commaToks_eq]
    simpa using this

theorem base_inst {l r : List Go.Tok} (h : IsTypeNameToks l) : BaseToks (l ++ .op g!"[" :: r) := ⟨l, _, h, rfl, .inr ⟨_, rfl⟩⟩

theorem base_name {l : List Go.Tok} (h : IsTypeNameToks l) : BaseToks l := ⟨l, [], h, by simp, .inl rfl⟩

/-- A type that is not an embedded field. -/
theorem printedAs_of {K : Copied} {v : Prop} {e : Expr} {s : Str} {l : List Go.Tok} (hp : TypePiece s l) (ht : IsType K l)
    (hd : NoDots l) (he : isEllipsis e = false) (hb : ¬ SrcBase e) (hm : SrcEmbedded e → EmbeddedToks l) : PrintedAs K v e s l :=
  ⟨hp, .inl ⟨he, ht, hd⟩, fun h => absurd h hb, hm⟩

/-- How a list of fields is printed. -/
structure FieldsAs (K : Copied) (v : Prop) (fs : List Field) (ss : List Str) (gs : List (Str × (List Str × List Go.Tok))) : Prop where
  texts : gs.map (·.1) = ss
  names : gs.map (·.2.1) = fs.map (·.names)
  items : ∀ g ∈ gs, Item true g.1 (fieldToks g.2)
  idents : ∀ g ∈ gs, ∀ x ∈ g.2.1, GoName x
  types : (∀ g ∈ gs, IsType K g.2.2) ∨ (v ∧ ∃ init s xs l, gs = init ++ [(s, (xs, .op g!"..." :: l))] ∧ xs.length ≤ 1 ∧ IsType K l ∧
    ∀ g ∈ init, IsType K g.2.2)
  embedded : (∀ f ∈ fs, f.names = [] → SrcEmbedded f.type) → ∀ g ∈ gs, g.2.1 = [] → EmbeddedToks g.2.2

theorem namedOrNot_of {fs : List Field} {xs : List (List Str × List Go.Tok)} (h : xs.map (·.1) = fs.map (·.names)) (hu : Uniform fs) :
    NamedOrNot xs := by
  have hm : ∀ x ∈ xs, ∃ f ∈ fs, f.names = x.1 := by
    intro x hx
    have : x.1 ∈ xs.map (·.1) := List.mem_map.mpr ⟨x, hx, rfl⟩
    rw [h] at this
    exact List.mem_map.mp this
  rcases hu with hu | hu
  · refine .inl fun x hx => ?_
    obtain ⟨f, hf, e⟩ := hm x hx
    rw [← e]; exact hu f hf
  · refine .inr fun x hx => ?_
    obtain ⟨f, hf, e⟩ := hm x hx
    rw [← e]; exact hu f hf

/-- A function type. -/
theorem func_printed {K : Copied} {ps : List Field} {rs : List Field} {pss rss : List Str} {gs hs : List (Str × (List Str × List Go.Tok))}
    (hp : FieldsAs K True ps pss gs) (hr : FieldsAs K False rs rss hs) (up : Uniform ps) (ur : Uniform rs) :
    ∃ l, TypePiece (g!"func(" ++ join g!", " pss ++ g!") (" ++ join g!", " rss ++ g!")") l ∧ IsType K l ∧ NoDots l := by
  have hi := item_func (gs.map fun g => (g.1, fieldToks g.2)) (hs.map fun g => (g.1, fieldToks g.2))
    (fun f hf => by obtain ⟨g, hg, rfl⟩ := List.mem_map.mp hf; exact hp.items g hg)
    (fun f hf => by obtain ⟨g, hg, rfl⟩ := List.mem_map.mp hf; exact hr.items g hg)
  have e1 : ∀ gs : List (Str × (List Str × List Go.Tok)), (gs.map fun g => (g.1, fieldToks g.2)).map (·.1) = gs.map (·.1) := by
    intro gs; rw [List.map_map]; rfl
  have e2 : ∀ gs : List (Str × (List Str × List Go.Tok)), (gs.map fun g => (g.1, fieldToks g.2)).map (·.2) = (gs.map (·.2)).map fieldToks := by
    intro gs; rw [List.map_map, List.map_map]; rfl
  rw [e1, e1, e2, e2, hp.texts, hr.texts] at hi
  have hrt : ∀ g ∈ hs, IsType K g.2.2 := by
    rcases hr.types with h | h
    · exact h
    · exact h.1.elim
  have hnr : NamedOrNot (hs.map (·.2)) := namedOrNot_of (by rw [List.map_map]; exact hr.names) ur
  have hnp : NamedOrNot (gs.map (·.2)) := namedOrNot_of (by rw [List.map_map]; exact hp.names) up
  refine ⟨_, ⟨⟨'f', _, rfl, .inl rfl⟩, ?_, hi⟩, ?_, ?_⟩
  · exact ends_cons (ends_cons (ends_append (ends_cons (ends_cons (ends_append ⟨[], _, rfl, .inr (.inl rfl)⟩)))))
  · rcases hp.types with h | ⟨_, init, s, xs, l, rfl, hx, hl, hin⟩
    · refine .func hnp hnr ?_ ?_
      · intro f hf
        rcases List.mem_append.mp hf with hf | hf <;> obtain ⟨g, hg, rfl⟩ := List.mem_map.mp hf
        · exact hp.idents g hg
        · exact hr.idents g hg
      · intro f hf
        rcases List.mem_append.mp hf with hf | hf <;> obtain ⟨g, hg, rfl⟩ := List.mem_map.mp hf
        · exact h g hg
        · exact hrt g hg
    · have := IsType.variadic (K := K) (ps := init.map (·.2)) (xs := xs) (l := l) (rs := hs.map (·.2)) (by
          refine namedOrNot_of (fs := ps) ?_ up
          rw [← hp.names]
          simp) hnr hx (by
          intro f hf
          rcases List.mem_append.mp hf with hf | hf
          · obtain ⟨g, hg, rfl⟩ := List.mem_map.mp hf
            exact hp.idents g (by simp [hg])
          · rcases List.mem_cons.mp hf with rfl | hf
            · exact hp.idents (s, (xs, .op g!"..." :: l)) (by simp)
            · obtain ⟨g, hg, rfl⟩ := List.mem_map.mp hf
              exact hr.idents g hg) (by
          intro f hf
          rcases List.mem_append.mp hf with hf | hf
          · obtain ⟨g, hg, rfl⟩ := List.mem_map.mp hf
            exact hin g hg
          · rcases List.mem_cons.mp hf with rfl | hf
            · exact hl
            · obtain ⟨g, hg, rfl⟩ := List.mem_map.mp hf
              exact hrt g hg)
      simpa using this
  · exact fun r e => nomatch e

/-- A struct type. -/
theorem struct_printed {K : Copied} {fs : List Field} {ss : List Str} {gs : List (Str × (List Str × List Go.Tok))}
    (h : FieldsAs K False fs ss gs) (he : ∀ f ∈ fs, f.names = [] → SrcEmbedded f.type) :
    ∃ l, TypePiece (g!"struct{\n" ++ join g!"\n" ss ++ g!"\n}") l ∧ IsType K l ∧ NoDots l := by
  have hi := item_struct (gs.map fun g => (g.1, fieldToks g.2))
    (fun f hf => by obtain ⟨g, hg, rfl⟩ := List.mem_map.mp hf; exact h.items g hg)
  have e1 : (gs.map fun g => (g.1, fieldToks g.2)).map (·.1) = gs.map (·.1) := by
    rw [List.map_map]; rfl
  have e2 : ((gs.map fun g => (g.1, fieldToks g.2)).flatMap fun f => f.2 ++ [Go.Tok.op g!";"]) =
      ((gs.map (·.2)).flatMap fun f => fieldToks f ++ [Go.Tok.op g!";"]) := by
    rw [List.flatMap_map, List.flatMap_map]
  rw [e1, e2, h.texts] at hi
  refine ⟨_, ⟨⟨'s', _, rfl, .inl rfl⟩, ?_, hi⟩, .struct ?_ ?_ ?_, fun r e => nomatch e⟩
  · exact ends_cons (ends_cons (ends_append ⟨[], _, rfl, .inr (.inr (.inr rfl))⟩))
  · intro f hf
    obtain ⟨g, hg, rfl⟩ := List.mem_map.mp hf
    exact h.idents g hg
  · intro f hf
    obtain ⟨g, hg, rfl⟩ := List.mem_map.mp hf
    rcases h.types with h | h
    · exact h g hg
    · exact h.1.elim
  · intro f hf h0
    obtain ⟨g, hg, rfl⟩ := List.mem_map.mp hf
    exact h.embedded he g hg h0

mutual
theorem printType_toks (env : PrintEnv) (he : PrefOk env) : ∀ (e : Expr) (v : Prop) (s : Str), SrcType env.raw v e →
    printType env e = .ok s → ∃ l, PrintedAs (copiedOf env.raw) v e s l
  | .ident n, v, s, ht, h => by
    simp only [SrcType] at ht
    obtain ⟨l, h1, h2⟩ := print_name he ht h
    exact ⟨l, h1, .inl ⟨rfl, .name h2, by simpa using nameToks_noDots h2 []⟩, fun _ => base_name h2, fun _ => (base_name h2).embedded⟩
  | .selector x b, v, s, ht, h => by
    simp only [SrcType] at ht
    obtain ⟨l, h1, h2⟩ := print_name he ht h
    exact ⟨l, h1, .inl ⟨rfl, .name h2, by simpa using nameToks_noDots h2 []⟩, fun _ => base_name h2, fun _ => (base_name h2).embedded⟩
  | .star x, v, s, ht, h => by
    simp only [printType, Res.bind_eq_ok] at h
    obtain ⟨t, h1, h2⟩ := h
    cases h2
    simp only [SrcType] at ht
    obtain ⟨l, hl⟩ := printType_toks env he x False t ht h1
    refine ⟨.op g!"*" :: l, printedAs_of ⟨⟨'*', t, rfl, .inr (.inl rfl)⟩, ends_cons hl.piece.ends, item_star hl.piece.begins hl.piece.item⟩
      (.pointer hl.type) (fun r e => nomatch e) rfl (fun h => h) (fun h => BaseToks.pointer (hl.base ?_))⟩
    cases x <;> first | trivial | exact h.elim
  | .ellipsis x, v, s, ht, h => by
    simp only [printType, Res.bind_eq_ok] at h
    obtain ⟨t, h1, h2⟩ := h
    cases h2
    simp only [SrcType] at ht
    obtain ⟨l, hl⟩ := printType_toks env he x False t ht.2 h1
    exact ⟨.op g!"..." :: l, ⟨⟨'.', _, rfl, .inr (.inr (.inr (.inr (.inr rfl))))⟩, ends_cons hl.piece.ends,
      item_dots hl.piece.begins hl.piece.item⟩, .inr ⟨ht.1, rfl, l, rfl, hl.type⟩, fun h => h.elim, fun h => h.elim⟩
  | .array none x, v, s, ht, h => by
    simp only [printType, Res.bind_eq_ok, printRaw] at h
    obtain ⟨t, h1, h2⟩ := h
    cases h2
    simp only [SrcType] at ht
    obtain ⟨l, hl⟩ := printType_toks env he x False t ht h1
    exact ⟨.op g!"[" :: .op g!"]" :: l, printedAs_of (piece_lead (p := g!"[]") (a := [.op g!"[", .op g!"]"]) (fun sm ts => ⟨true, rfl⟩)
      ⟨'[', _, rfl, .inr (.inr (.inl rfl))⟩ hl.piece) (.slice hl.type) (fun r e => nomatch e) rfl (fun h => h) (fun h => h.elim)⟩
  | .array (some n) x, v, s, ht, h => by
    simp only [printType, Res.bind_eq_ok, printRaw] at h
    obtain ⟨t, h1, h2⟩ := h
    cases h2
    simp only [SrcType] at ht
    obtain ⟨⟨k, hb, hk⟩, ht⟩ := ht
    obtain ⟨l, hl⟩ := printType_toks env he x False t ht h1
    have hp : Lead (g!"[" ++ env.raw n ++ g!"]") (.op g!"[" :: (k ++ [.op g!"]"])) := by
      intro sm ts
      refine ⟨true, ?_⟩
      rw [List.append_assoc, State.run_append]
      show State.run ⟨.start, false, .op g!"[" :: ts⟩ _ = _
      rw [hk]
      simp
    refine ⟨.op g!"[" :: (k ++ .op g!"]" :: l), printedAs_of (by
      have := piece_lead hp ⟨'[', env.raw n ++ g!"]", rfl, .inr (.inr (.inl rfl))⟩ hl.piece
      simpa using this) (.array ⟨n, hb, hk⟩ hl.type)
      (fun r e => nomatch e) rfl (fun h => h) (fun h => h.elim)⟩
  | .mapT k t, v, s, ht, h => by
    simp only [printType, Res.bind_eq_ok] at h
    obtain ⟨ks, h1, vs, h2, h3⟩ := h
    cases h3
    simp only [SrcType] at ht
    obtain ⟨l, hl⟩ := printType_toks env he k False ks ht.1 h1
    obtain ⟨l', hl'⟩ := printType_toks env he t False vs ht.2 h2
    have hp : Lead (g!"map[" ++ ks ++ g!"]") (.word g!"map" :: .op g!"[" :: (l ++ [.op g!"]"])) := by
      have h1 : Lead g!"map[" [.word g!"map", .op g!"["] := fun sm ts => ⟨false, rfl⟩
      simpa using h1.append (hl.piece.item.single ']' rfl)
    refine ⟨.word g!"map" :: .op g!"[" :: (l ++ .op g!"]" :: l'), printedAs_of (by
      have := piece_lead hp ⟨'m', _, rfl, .inl rfl⟩ hl'.piece
      simpa using this) (.map hl.type hl'.type) (fun r e => nomatch e) rfl (fun h => h) (fun h => h.elim)⟩
  | .chanT d t, v, s, ht, h => by
    simp only [printType, Res.bind_eq_ok] at h
    obtain ⟨ts, h1, h2⟩ := h
    cases h2
    simp only [SrcType] at ht
    obtain ⟨l, hl⟩ := printType_toks env he t False ts ht h1
    cases d with
    | both =>
      exact ⟨.word g!"chan" :: l, printedAs_of (piece_lead (p := g!"chan ") (a := [.word g!"chan"]) (fun sm ts => ⟨false, rfl⟩)
        ⟨'c', _, rfl, .inl rfl⟩ hl.piece) (.chan hl.type) (fun r e => nomatch e) rfl (fun h => h) (fun h => h.elim)⟩
    | send =>
      exact ⟨.word g!"chan" :: .op g!"<-" :: l, printedAs_of (piece_lead (p := g!"chan<- ") (a := [.word g!"chan", .op g!"<-"])
        (fun sm ts => ⟨false, rfl⟩) ⟨'c', _, rfl, .inl rfl⟩ hl.piece) (.chanSend hl.type) (fun r e => nomatch e) rfl (fun h => h)
        (fun h => h.elim)⟩
    | recv =>
      exact ⟨.op g!"<-" :: .word g!"chan" :: l, printedAs_of (piece_lead (p := g!"<-chan ") (a := [.op g!"<-", .word g!"chan"])
        (fun sm ts => ⟨false, rfl⟩) ⟨'<', _, rfl, .inr (.inr (.inr (.inr (.inl rfl))))⟩ hl.piece) (.chanRecv hl.type)
        (fun r e => nomatch e) rfl (fun h => h) (fun h => h.elim)⟩
  | .funcT ps rs, v, s, ht, h => by
    simp only [printType, Res.bind_eq_ok] at h
    obtain ⟨pss, h1, rss, h2, h3⟩ := h
    cases h3
    simp only [SrcType] at ht
    obtain ⟨gs, hg⟩ := printFields_toks env he ps True pss ht.2.1 h1
    obtain ⟨fs, hs, hh, hu⟩ := printResults_toks env he rs rss ht.2.2 h2
    obtain ⟨l, p1, p2, p3⟩ := func_printed hg hh ht.1 hu
    exact ⟨l, printedAs_of p1 p2 p3 rfl (fun h => h) (fun h => h.elim)⟩
  | .structT fs, v, s, ht, h => by
    simp only [printType, Res.bind_eq_ok] at h
    obtain ⟨ss, h1, h3⟩ := h
    cases h3
    simp only [SrcType] at ht
    obtain ⟨gs, hg⟩ := printFields_toks env he fs False ss ht.2 h1
    obtain ⟨l, p1, p2, p3⟩ := struct_printed hg ht.1
    exact ⟨l, printedAs_of p1 p2 p3 rfl (fun h => h) (fun h => h.elim)⟩
  | .index x i, v, s, ht, h => by
    simp only [printType, Res.bind_eq_ok] at h
    obtain ⟨t, h1, u, h2, h3⟩ := h
    cases h3
    simp only [SrcType] at ht
    obtain ⟨l, hl, hn⟩ := print_name he ht.1 h1
    obtain ⟨k, hk⟩ := printType_toks env he i False u ht.2 h2
    have := piece_inst hl [(u, k)] (by simpa using hk.piece.item)
    refine ⟨l ++ .op g!"[" :: (k ++ [.op g!"]"]), by simpa [join, commaToks] using this,
      .inl ⟨rfl, .inst (args := [k]) hn (by simp) (by simpa using hk.type), nameToks_noDots hn _⟩,
      fun _ => base_inst hn, fun _ => (base_inst hn).embedded⟩
  | .indexList x is, v, s, ht, h => by
    rw [printType] at h
    simp only [Res.bind_eq_ok] at h
    obtain ⟨t, h1, h2⟩ := h
    simp only [SrcType] at ht
    obtain ⟨l, hl, hn⟩ := print_name he ht.1 h1
    obtain ⟨ss, hlen, rfl, hok⟩ := printIndices_join is _ s ht.2.1 h2
    obtain ⟨args, ha, hb⟩ := printTypes_toks env he is ss ht.2.2 hlen hok
    have := piece_inst hl args (fun a h => (hb a h).1)
    rw [ha] at this
    refine ⟨l ++ .op g!"[" :: (commaToks (args.map (·.2)) ++ [.op g!"]"]), this, .inl ⟨rfl, .inst hn ?_ ?_, nameToks_noDots hn _⟩,
      fun _ => base_inst hn, fun _ => (base_inst hn).embedded⟩
    · intro e
      have h0 : args = [] := by simpa using e
      rw [h0] at ha
      rw [← ha] at hlen
      exact ht.2.1 (List.length_eq_zero_iff.1 hlen.symm)
    · intro a ha
      obtain ⟨x, hx, rfl⟩ := List.mem_map.mp ha
      exact (hb x hx).2
  | .ifaceT ms, v, s, ht, h => by
    simp only [printType, Res.ok.injEq] at h
    simp only [SrcType] at ht
    rw [h] at ht
    exact ⟨_, printedAs_of (.copied ht) (.copied ⟨.ifaceT ms, .inl ⟨ms, rfl⟩, by rw [h], ht.2.2⟩) ht.2.2.not_dots rfl (fun h => h) (fun h => h.elim)⟩
  | .paren x, v, s, ht, h => by
    simp only [printType, Res.ok.injEq] at h
    simp only [SrcType] at ht
    rw [h] at ht
    exact ⟨_, printedAs_of (.copied ht) (.copied ⟨.paren x, .inr ⟨x, rfl⟩, by rw [h], ht.2.2⟩) ht.2.2.not_dots rfl (fun h => h) (fun h => h.elim)⟩
  | .sliceExpr _, _, _, ht, _ => by simp [SrcType] at ht
  | .lit _, _, _, ht, _ => by simp [SrcType] at ht
  | .unary _ _, _, _, ht, _ => by simp [SrcType] at ht
  | .binary _ _ _, _, _, ht, _ => by simp [SrcType] at ht
  | .other _, _, _, ht, _ => by simp [SrcType] at ht
theorem printField_toks (env : PrintEnv) (he : PrefOk env) : ∀ (f : Field) (v : Prop) (s : Str), SrcField env.raw v f →
    printField env f = .ok s → ∃ t l, s = join g!", " f.names ++ g!" " ++ t ∧ (∀ x ∈ f.names, GoName x) ∧
      PrintedAs (copiedOf env.raw) (v ∧ f.names.length ≤ 1) f.type t l
  | .mk _ _ names t _, v, s, ht, h => by
    simp only [printField, Res.bind_eq_ok] at h
    obtain ⟨ts, h1, h2⟩ := h
    cases h2
    simp only [SrcField] at ht
    obtain ⟨l, hl⟩ := printType_toks env he t _ ts ht.2 h1
    exact ⟨ts, l, rfl, ht.1, hl⟩
theorem printFields_toks (env : PrintEnv) (he : PrefOk env) : ∀ (fs : List Field) (v : Prop) (ss : List Str),
    SrcFields env.raw v fs → printFields env fs = .ok ss → ∃ gs, FieldsAs (copiedOf env.raw) v fs ss gs
  | [], v, ss, _, h => by
    simp only [printFields, Res.ok.injEq] at h
    subst h
    exact ⟨[], rfl, rfl, nofun, nofun, .inl nofun, nofun⟩
  | f :: fs, v, ss, ht, h => by
    simp only [printFields, Res.bind_eq_ok] at h
    obtain ⟨t, h1, ts, h2, h3⟩ := h
    cases h3
    simp only [SrcFields] at ht
    obtain ⟨u, l, rfl, hn, hl⟩ := printField_toks env he f _ t ht.1 h1
    obtain ⟨gs, hg⟩ := printFields_toks env he fs v ts ht.2 h2
    refine ⟨(join g!", " f.names ++ g!" " ++ u, (f.names, l)) :: gs, by simp [hg.texts], by simp [hg.names], ?_, ?_, ?_, ?_⟩
    · intro g hgm
      rcases List.mem_cons.mp hgm with rfl | hgm
      · exact item_field hn hl.piece.item
      · exact hg.items g hgm
    · intro g hgm
      rcases List.mem_cons.mp hgm with rfl | hgm
      · exact hn
      · exact hg.idents g hgm
    · rcases hl.kind with hk | ⟨⟨⟨hv, h0⟩, hlen⟩, _, r, hr, hrt⟩
      · rcases hg.types with hgt | ⟨hv, init, s, xs, k, e, hx, hkt, hin⟩
        · refine .inl fun g hgm => ?_
          rcases List.mem_cons.mp hgm with rfl | hgm
          · exact hk.2.1
          · exact hgt g hgm
        · refine .inr ⟨hv, _ :: init, s, xs, k, by rw [e]; rfl, hx, hkt, fun g hgm => ?_⟩
          rcases List.mem_cons.mp hgm with rfl | hgm
          · exact hk.2.1
          · exact hin g hgm
      · have hgs : gs = [] := by
          have := hg.names
          rw [h0] at this
          simpa using this
        subst hgs
        exact .inr ⟨hv, [], _, f.names, r, by rw [hr]; rfl, hlen, hrt, nofun⟩
    · intro hem g hgm h0
      rcases List.mem_cons.mp hgm with rfl | hgm
      · exact hl.embedded (hem f (by simp) h0)
      · exact hg.embedded (fun f hf => hem f (by simp [hf])) g hgm h0
theorem printResults_toks (env : PrintEnv) (he : PrefOk env) : ∀ (rs : Option (List Field)) (ss : List Str),
    SrcResults env.raw rs → printResults env rs = .ok ss → ∃ fs gs, FieldsAs (copiedOf env.raw) False fs ss gs ∧ Uniform fs
  | none, ss, _, h => by
    simp only [printResults, Res.ok.injEq] at h
    subst h
    exact ⟨[], [], ⟨rfl, rfl, nofun, nofun, .inl nofun, nofun⟩, .inl nofun⟩
  | some fs, ss, ht, h => by
    simp only [printResults] at h
    simp only [SrcResults] at ht
    obtain ⟨gs, hg⟩ := printFields_toks env he fs False ss ht.2 h
    exact ⟨fs, gs, hg, ht.1⟩
theorem printTypes_toks (env : PrintEnv) (he : PrefOk env) : ∀ (es : List Expr) (ss : List Str),
    SrcTypes env.raw es → ss.length = es.length →
    (∀ (i : Nat) e t, es[i]? = some e → ss[i]? = some t → printType env e = .ok t) →
    ∃ args : List (Str × List Go.Tok), args.map (·.1) = ss ∧ ∀ a ∈ args, Item true a.1 a.2 ∧ IsType (copiedOf env.raw) a.2
  | [], ss, _, hl, _ => by
    have : ss = [] := List.length_eq_zero_iff.1 hl
    subst this
    exact ⟨[], rfl, nofun⟩
  | e :: es, [], _, hl, _ => by simp at hl
  | e :: es, s :: ss, ht, hl, h => by
    simp only [SrcTypes] at ht
    obtain ⟨l, hl1⟩ := printType_toks env he e False s ht.1 (h 0 e s rfl rfl)
    obtain ⟨args, h2, h3⟩ := printTypes_toks env he es ss ht.2 (by simpa using hl)
      (fun i a b ha hb => h (i + 1) a b (by simpa using ha) (by simpa using hb))
    refine ⟨(s, l) :: args, by simp [h2], fun a ha => ?_⟩
    rcases List.mem_cons.mp ha with rfl | ha
    · exact ⟨hl1.piece.item, hl1.type⟩
    · exact h3 a ha
end

end Gowrap
