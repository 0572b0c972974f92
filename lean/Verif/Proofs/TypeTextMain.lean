import Verif.Proofs.TypeText
/-! The printed text of a type says what it should say: the induction over types -/

namespace Gowrap

open Spec

theorem group_bal : ∀ (d d' : Nat) (acc x rest : Str), bal d x = some d' →
    group d acc (x ++ rest) = group d' (x.reverse ++ acc) rest
  | d, d', acc, [], rest, h => by simp [bal] at h; subst h; rfl
  | d, d', acc, c :: x, rest, h => by
    simp only [bal] at h
    simp only [List.cons_append, group, List.reverse_cons, List.append_assoc, List.nil_append]
    split at h
    · rename_i ho; rw [if_pos ho, group_bal _ _ _ _ _ h]
    · rename_i ho
      rw [if_neg ho]
      split at h
      · rename_i hcl
        rw [if_pos hcl]
        cases d with
        | zero => cases h
        | succ d => exact group_bal _ _ _ _ _ h
      · rename_i hcl; rw [if_neg hcl, group_bal _ _ _ _ _ h]

theorem group_balanced {x : Str} (h : Balanced x) {cl : Char} (hcl : isClose cl = true) (rest : Str) :
    group 0 [] (x ++ cl :: rest) = some (x, rest) := by
  have ho : isOpen cl = false := by
    cases hh : isOpen cl with
    | false => rfl
    | true =>
      simp only [isOpen, isClose, decide_eq_true_eq] at hh hcl
      rcases hh with rfl | rfl | rfl <;> revert hcl <;> decide
  rw [group_bal 0 0 [] x _ h]
  simp [group, ho, hcl]

theorem ptr_ok {t s} (h : TextOk t s) : TextOk (.ptr t) (g!"*" ++ s) := by
  refine ⟨fun rest hr => (h.reads rest hr).step fun f hf => ?_, ⟨'*', s, rfl, by simp [StartChar]⟩,
    fun rest _ => head_symbol (by decide) (by decide) rest⟩
  simp only [List.cons_append, List.nil_append, readTy, hf, Option.map_some]

theorem variadic_ok {t s} (h : TextOk t s) : TextOk (.variadic t) (g!"..." ++ s) := by
  refine ⟨fun rest hr => (h.reads rest hr).step fun f hf => ?_, ⟨'.', g!".." ++ s, rfl, by simp [StartChar]⟩,
    fun rest _ => head_symbol (c := '.') (s := g!".." ++ s) (by decide) (by decide) rest⟩
  simp only [List.cons_append, List.nil_append, readTy, hf, Option.map_some]

theorem slice_ok {t s} (h : TextOk t s) : TextOk (.slice t) (g!"[" ++ [] ++ g!"]" ++ s) := by
  refine ⟨fun rest hr => (h.reads rest hr).step fun f hf => ?_, ⟨'[', g!"]" ++ s, rfl, by simp [StartChar]⟩,
    fun rest _ => head_symbol (c := '[') (s := g!"]" ++ s) (by decide) (by decide) rest⟩
  simp only [List.cons_append, List.nil_append, readTy, hf, Option.map_some]

theorem arr_ok {l : Str} (hl : Balanced l) (h0 : l ≠ []) {t s} (h : TextOk t s) :
    TextOk (.arr l t) (g!"[" ++ l ++ g!"]" ++ s) := by
  obtain ⟨c, l', e⟩ := List.exists_cons_of_ne_nil h0
  have hc : c ≠ ']' := by
    rintro rfl
    rw [e] at hl
    exact absurd hl (by simp [Balanced, bal, isOpen, isClose])
  refine ⟨fun rest hr => (h.reads rest hr).step fun f hf => ?_,
    ⟨'[', l ++ g!"]" ++ s, rfl, by simp [StartChar]⟩,
    fun rest _ => head_symbol (c := '[') (s := l ++ g!"]" ++ s) (by decide) (by decide) rest⟩
  have hg := group_balanced hl (cl := ']') (by decide) (s ++ rest)
  have e1 : g!"[" ++ l ++ g!"]" ++ s ++ rest = '[' :: (l ++ ']' :: (s ++ rest)) := by simp
  rw [e1, readTy]
  · rw [hg]; simp only [hf, Option.map_some]
  · intro r hh
    rw [e] at hh
    injection hh with h1 _
    exact hc h1

theorem map_ok {k v ks vs} (hk : TextOk k ks) (hv : TextOk v vs) :
    TextOk (.mapT k v) (g!"map[" ++ ks ++ g!"]" ++ vs) := by
  have e1 : ∀ rest, g!"map[" ++ ks ++ g!"]" ++ vs ++ rest = g!"map" ++ ('[' :: (ks ++ ']' :: (vs ++ rest))) := by
    intro rest; simp
  have hst : ∀ r, Stops ('[' :: r) := by rintro r c s h; cases h; decide
  refine ⟨fun rest hr => ?_, ⟨'m', g!"ap[" ++ ks ++ g!"]" ++ vs, rfl, by simp [StartChar]; decide⟩, ?_⟩
  · have h1 := hk.reads (']' :: (vs ++ rest)) (Or.inr ⟨_, _, rfl, by simp⟩)
    have h2 := hv.reads rest hr
    have h3 : Eventually fun f => readWord f g!"map" ('[' :: (ks ++ ']' :: (vs ++ rest))) = some (.mapT k v, rest) := by
      refine (h1.and h2).step ?_
      rintro f ⟨hf, hf'⟩
      rw [readWord.eq_def]
      simp only [if_true, hf, hf', Option.map_some]
    refine h3.step fun f hf => ?_
    rw [e1, readTy_kw (by decide) (hst _), hf]
  · intro rest _
    left
    rw [e1]
    exact head_keyword (by decide) (hst _)

theorem chan_both_ok {t s} (h : TextOk t s) (h0 : ∀ r, s ≠ '<' :: r) : TextOk (.chanT .both t) (g!"chan " ++ s) := by
  have e1 : ∀ rest, g!"chan " ++ s ++ rest = g!"chan" ++ (' ' :: (s ++ rest)) := by intro rest; simp
  have hst : ∀ r, Stops (' ' :: r) := by rintro r c s h; cases h; decide
  refine ⟨fun rest hr => ?_, ⟨'c', g!"han " ++ s, rfl, by simp [StartChar]; decide⟩, ?_⟩
  · have h3 : Eventually fun f => readWord f g!"chan" (' ' :: (s ++ rest)) = some (.chanT .both t, rest) := by
      refine (h.reads rest hr).step fun f hf => ?_
      have hs : skipBlanks (' ' :: (s ++ rest)) = s ++ rest := by
        simp only [skipBlanks, true_or, if_true]; exact h.skip rest
      rw [readWord.eq_def]
      simp only [hs]
      rw [if_neg (by decide), if_pos trivial]
      obtain ⟨c, s', rfl, hc⟩ := h.start
      split
      · rename_i hh; simp only [List.cons_append] at hh; injection hh with h1 _; subst h1; exact absurd rfl (h0 _)
      · rw [hf]; rfl
    refine h3.step fun f hf => ?_
    rw [e1, readTy_kw (by decide) (hst _), hf]
  · intro rest _
    left
    rw [e1]
    exact head_keyword (by decide) (hst _)

theorem chan_send_ok {t s} (h : TextOk t s) : TextOk (.chanT .send t) (g!"chan<- " ++ s) := by
  have e1 : ∀ rest, g!"chan<- " ++ s ++ rest = g!"chan" ++ ('<' :: '-' :: ' ' :: (s ++ rest)) := by intro rest; simp
  have hst : ∀ r, Stops ('<' :: r) := by rintro r c s h; cases h; decide
  refine ⟨fun rest hr => ?_, ⟨'c', g!"han<- " ++ s, rfl, by simp [StartChar]; decide⟩, ?_⟩
  · have h3 : Eventually fun f => readWord f g!"chan" ('<' :: '-' :: ' ' :: (s ++ rest)) = some (.chanT .send t, rest) := by
      refine (h.reads rest hr).step fun f hf => ?_
      have hs : skipBlanks (' ' :: (s ++ rest)) = s ++ rest := by
        simp only [skipBlanks, true_or, if_true]; exact h.skip rest
      have hs2 : skipBlanks ('<' :: '-' :: ' ' :: (s ++ rest)) = '<' :: '-' :: ' ' :: (s ++ rest) :=
        skipBlanks_start (by simp [StartChar])
      rw [readWord.eq_def]
      simp only [hs2, hs, hf, Option.map_some]
      rw [if_neg (by decide), if_pos trivial]
    refine h3.step fun f hf => ?_
    rw [e1, readTy_kw (by decide) (hst _), hf]
  · intro rest _
    left
    rw [e1]
    exact head_keyword (by decide) (hst _)

theorem chan_recv_ok {t s} (h : TextOk t s) : TextOk (.chanT .recv t) (g!"<-chan " ++ s) := by
  refine ⟨fun rest hr => (h.reads rest hr).step fun f hf => ?_, ⟨'<', g!"-chan " ++ s, rfl, by simp [StartChar]⟩,
    fun rest _ => head_symbol (c := '<') (s := g!"-chan " ++ s) (by decide) (by decide) rest⟩
  simp only [List.cons_append, List.nil_append, readTy, hf, Option.map_some]

theorem paren_ok {b : Str} (h : Balanced b) : TextOk (.opaque (g!"(" ++ b ++ g!")")) (g!"(" ++ b ++ g!")") := by
  refine ⟨fun rest _ => Eventually.all fun f => ?_, ⟨'(', b ++ g!")", rfl, by simp [StartChar]⟩,
    fun rest _ => head_symbol (c := '(') (s := b ++ g!")") (by decide) (by decide) rest⟩
  have hg := group_balanced h (cl := ')') (by decide) rest
  have e1 : g!"(" ++ b ++ g!")" ++ rest = '(' :: (b ++ ')' :: rest) := by simp
  rw [e1, readTy, hg]

theorem iface_ok {b : Str} (h : Balanced b) :
    TextOk (.opaque (g!"interface{" ++ b ++ g!"}")) (g!"interface{" ++ b ++ g!"}") := by
  have e1 : ∀ rest, g!"interface{" ++ b ++ g!"}" ++ rest = g!"interface" ++ ('{' :: (b ++ '}' :: rest)) := by
    intro rest; simp
  have hst : ∀ r, Stops ('{' :: r) := by rintro r c s h; cases h; decide
  refine ⟨fun rest _ => ?_, ⟨'i', g!"nterface{" ++ b ++ g!"}", rfl, by simp [StartChar]; decide⟩, ?_⟩
  · have hg := group_balanced h (cl := '}') (by decide) rest
    have h3 : Eventually fun f => readWord f g!"interface" ('{' :: (b ++ '}' :: rest)) =
        some (.opaque (g!"interface{" ++ b ++ g!"}"), rest) := by
      refine Eventually.all fun f => ?_
      rw [readWord.eq_def]
      simp only [hg]
      rw [if_neg (by decide), if_neg (by decide), if_neg (by decide), if_neg (by decide), if_pos trivial]
    refine h3.step fun f hf => ?_
    rw [e1, readTy_kw (by decide) (hst _), hf]
  · intro rest _
    left
    rw [e1]
    exact head_keyword (by decide) (hst _)

theorem func_ok {ps rs : List TyField} {pe re : List Entry} {pss rss : List Str}
    (hp : ∀ rest, Eventually fun f => readEntries f (join g!", " pss ++ ')' :: rest) = some (pe, rest))
    (hr : ∀ rest, Eventually fun f => readEntries f (join g!", " rss ++ ')' :: rest) = some (re, rest))
    (hps : resolve pe = some ps) (hrs : resolve re = some rs) :
    TextOk (.func ps rs) (g!"func(" ++ join g!", " pss ++ g!") (" ++ join g!", " rss ++ g!")") := by
  have e1 : ∀ rest, g!"func(" ++ join g!", " pss ++ g!") (" ++ join g!", " rss ++ g!")" ++ rest =
      g!"func" ++ ('(' :: (join g!", " pss ++ ')' :: ' ' :: '(' :: (join g!", " rss ++ ')' :: rest))) := by
    intro rest; simp
  have hst : ∀ r, Stops ('(' :: r) := by rintro r c s h; cases h; decide
  refine ⟨fun rest _ => ?_, ⟨'f', g!"unc(" ++ join g!", " pss ++ g!") (" ++ join g!", " rss ++ g!")",
    by simp, by simp [StartChar]; decide⟩, ?_⟩
  · have h3 : Eventually fun f => readWord f g!"func"
        ('(' :: (join g!", " pss ++ ')' :: ' ' :: '(' :: (join g!", " rss ++ ')' :: rest))) =
        some (.func ps rs, rest) := by
      refine ((hp (' ' :: '(' :: (join g!", " rss ++ ')' :: rest))).and (hr rest)).step ?_
      rintro f ⟨hf, hf'⟩
      rw [readWord.eq_def]
      simp only [hf, hf', hps, hrs]
      rw [if_neg (by decide), if_neg (by decide), if_pos trivial]
    refine h3.step fun f hf => ?_
    rw [e1, readTy_kw (by decide) (hst _), hf]
  · intro rest _
    left
    rw [e1]
    exact head_keyword (by decide) (hst _)

theorem struct_ok {fs : List TyField} {ss : List Str} (hl : fs.length = ss.length)
    (h : ∀ (i : Nat) t s, fs[i]? = some t → ss[i]? = some s → FieldOk t s) :
    TextOk (.struct fs) (g!"struct{\n" ++ join g!"\n" ss ++ g!"\n}") := by
  have e1 : ∀ rest, g!"struct{\n" ++ join g!"\n" ss ++ g!"\n}" ++ rest =
      g!"struct" ++ ('{' :: ('\n' :: (join g!"\n" ss ++ '\n' :: '}' :: rest))) := by
    intro rest; simp
  have hst : ∀ r, Stops ('{' :: r) := by rintro r c s h; cases h; decide
  refine ⟨fun rest _ => ?_, ⟨'s', g!"truct{\n" ++ join g!"\n" ss ++ g!"\n}",
    by simp, by simp [StartChar]; decide⟩, ?_⟩
  · obtain ⟨M, ih⟩ := readFields_join fs ss hl h rest
    have ih' : Eventually fun f => readFields f ('\n' :: (join g!"\n" ss ++ '\n' :: '}' :: rest)) =
        some (fs, rest) := by
      refine ⟨M + 1, fun f hf => ?_⟩
      obtain ⟨g, rfl⟩ : ∃ g, f = g + 1 := ⟨f - 1, by omega⟩
      have := ih (g + 1) (by omega)
      simp only at this ⊢
      rw [readFields.eq_def] at this ⊢
      simpa only [skipBlanks, or_true, if_true] using this
    have h3 : Eventually fun f => readWord f g!"struct" ('{' :: ('\n' :: (join g!"\n" ss ++ '\n' :: '}' :: rest))) =
        some (.struct fs, rest) := by
      refine ih'.step fun f hf => ?_
      rw [readWord.eq_def]
      simp only [hf, Option.map_some]
      rw [if_neg (by decide), if_neg (by decide), if_neg (by decide), if_pos trivial]
    refine h3.step fun f hf => ?_
    rw [e1, readTy_kw (by decide) (hst _), hf]
  · intro rest _
    left
    rw [e1]
    exact head_keyword (by decide) (hst _)

/-- A printed group of parameters or fields: its names and the text of its type. -/
def GroupText (f : TyField) (s : Str) : Prop :=
  ∃ names t ts, f = .mk names t ∧ s = join g!", " names ++ g!" " ++ ts ∧
    (∀ n ∈ names, IdentOk n) ∧ TextOk t ts

theorem GroupText.field {f s} (h : GroupText f s) : FieldOk f s := by
  obtain ⟨names, t, ts, rfl, rfl, hn, ht⟩ := h
  cases names with
  | nil => exact embedded_field ht
  | cons n ns => exact named_field (by simp) hn ht

theorem GroupText.pieces {f s} (h : GroupText f s) :
    ∃ pieces, pieces ≠ [] ∧ s = join g!", " pieces ∧ (entriesOf f).length = pieces.length ∧
      ∀ (i : Nat) e p, (entriesOf f)[i]? = some e → pieces[i]? = some p → PieceOk e p := by
  obtain ⟨names, t, ts, rfl, rfl, hn, ht⟩ := h
  refine ⟨piecesOf names ts, piecesOf_ne_nil _ _, join_pieces _ _, ?_⟩
  cases names with
  | nil =>
    refine ⟨rfl, ?_⟩
    intro i e p he hp
    match i with
    | 0 =>
      simp [entriesOf, piecesOf] at he hp
      subst he hp
      exact single_piece ht g!" " (Or.inr rfl)
    | i + 1 => simp [entriesOf] at he
  | cons n ns =>
    refine ⟨by simp [entriesOf, piecesOf], ?_⟩
    intro i e p he hp
    simp only [entriesOf, piecesOf] at he hp
    by_cases hi : i < (n :: ns).dropLast.length
    · rw [List.getElem?_append_left (by simpa using hi)] at he
      rw [List.getElem?_append_left hi] at hp
      rw [List.getElem?_map, hp] at he
      simp at he
      subst he
      have hm : p ∈ (n :: ns) := List.dropLast_subset _ (List.mem_of_getElem? hp)
      have := single_piece (NameText.bare (hn p hm)).ok [] (Or.inl rfl)
      simpa using this
    · rw [List.getElem?_append_right (by simpa using hi)] at he
      rw [List.getElem?_append_right (by simpa using hi)] at hp
      simp only [List.length_map] at he
      have hlen : i - (n :: ns).dropLast.length = 0 := by
        cases hh : i - (n :: ns).dropLast.length with
        | zero => rfl
        | succ k => rw [hh] at he; simp at he
      rw [hlen] at he hp
      simp only [List.getElem?_cons_zero, Option.some.injEq] at he hp
      subst he hp
      have hm : (n :: ns).getLastD [] ∈ n :: ns := by
        have := dropLast_getLastD n ns
        rw [← this]; simp
      exact named_piece (hn _ hm) ht

/-- Parameter lists. -/
theorem groups_entries : ∀ (fs : List TyField) (ss : List Str), fs.length = ss.length →
    (∀ (i : Nat) f s, fs[i]? = some f → ss[i]? = some s → GroupText f s) →
    ∃ pieces : List Str, join g!", " ss = join g!", " pieces ∧ (fs.flatMap entriesOf).length = pieces.length ∧
      (pieces = [] ↔ ss = []) ∧
      ∀ (i : Nat) e p, (fs.flatMap entriesOf)[i]? = some e → pieces[i]? = some p → PieceOk e p
  | [], ss, hl, _ => by
    have : ss = [] := List.length_eq_zero_iff.1 hl.symm
    subst this
    exact ⟨[], rfl, rfl, Iff.rfl, by simp⟩
  | f :: fs, [], hl, _ => by simp at hl
  | f :: fs, s :: ss, hl, h => by
    obtain ⟨ps, hps, e1, l1, ok1⟩ := (h 0 f s rfl rfl).pieces
    obtain ⟨qs, e2, l2, n2, ok2⟩ := groups_entries fs ss (by simpa using hl)
      (fun i u v hu hv => h (i + 1) u v (by simpa using hu) (by simpa using hv))
    refine ⟨ps ++ qs, ?_, by simp [l1, l2], by simp [hps], ?_⟩
    · cases ss with
      | nil =>
        have : qs = [] := n2.2 rfl
        subst this
        simpa [join] using e1
      | cons a b =>
        have hq : qs ≠ [] := fun e => by simpa using n2.1 e
        rw [join_append _ _ _ hps hq, ← e2, ← e1, join]
    · intro i e p he hp
      simp only [List.flatMap_cons] at he
      by_cases hi : i < ps.length
      · rw [List.getElem?_append_left (by omega)] at he
        rw [List.getElem?_append_left hi] at hp
        exact ok1 i e p he hp
      · rw [List.getElem?_append_right (by omega)] at he
        rw [List.getElem?_append_right (by omega)] at hp
        rw [l1] at he
        exact ok2 _ e p he hp

theorem groups_read {fs : List TyField} {ss : List Str} (hl : fs.length = ss.length)
    (h : ∀ (i : Nat) f s, fs[i]? = some f → ss[i]? = some s → GroupText f s) (rest : Str) :
    Eventually fun f => readEntries f (join g!", " ss ++ ')' :: rest) = some (fs.flatMap entriesOf, rest) := by
  obtain ⟨ps, e, l, _, ok⟩ := groups_entries fs ss hl h
  rw [e]
  exact readEntries_join _ _ l ok rest

theorem resolve_groups {fs : List TyField}
    (h : (∀ f ∈ fs, ∃ t, f = .mk [] t) ∨ (∀ f ∈ fs, ∃ names t, f = .mk names t ∧ names ≠ [])) :
    resolve (fs.flatMap entriesOf) = some fs := by
  rcases h with h | h
  · exact resolve_anon fs h
  · cases fs with
    | nil => rfl
    | cons f fs => exact resolve_named _ (by simp) h

theorem meaningFields_length (raw decls pref) : ∀ fs : List Field, (meaningFields raw decls pref fs).length = fs.length
  | [] => rfl
  | f :: fs => by simp [meaningFields, meaningFields_length raw decls pref fs]

theorem meaningFields_uniform {raw decls pref} {fs : List Field} (h : Uniform fs) :
    (∀ f ∈ meaningFields raw decls pref fs, ∃ t, f = .mk [] t) ∨
    (∀ f ∈ meaningFields raw decls pref fs, ∃ names t, f = .mk names t ∧ names ≠ []) := by
  have key : ∀ (fs : List Field) (f : TyField), f ∈ meaningFields raw decls pref fs →
      ∃ g ∈ fs, f = .mk g.names (meaning raw decls pref g.type) := by
    intro fs
    induction fs with
    | nil => intro f hf; simp [meaningFields] at hf
    | cons g fs ih =>
      intro f hf
      simp only [meaningFields, List.mem_cons] at hf
      rcases hf with rfl | hf
      · cases g; exact ⟨_, List.mem_cons_self, by simp only [meaningField, Field.names, Field.type]⟩
      · obtain ⟨g', h1, h2⟩ := ih f hf
        exact ⟨g', by simp [h1], h2⟩
  rcases h with h | h
  · left
    intro f hf
    obtain ⟨g, hg, rfl⟩ := key fs f hf
    exact ⟨_, by rw [h g hg]⟩
  · right
    intro f hf
    obtain ⟨g, hg, rfl⟩ := key fs f hf
    exact ⟨_, _, rfl, h g hg⟩

/-- The environment prints what go/printer would, under a proper selector. -/
structure EnvOk (env : PrintEnv) : Prop where
  raw : RawOk env.raw
  pref : env.pref = [] ∨ IdentOk env.pref

abbrev mean (env : PrintEnv) (e : Expr) : Ty := meaning env.raw env.types env.pref e

theorem typeName_text {env : PrintEnv} (he : EnvOk env) {x : Expr} (hx : IsTypeName x) {s : Str}
    (h : printType env x = .ok s) : NameText (mean env x) s := by
  cases x with
  | ident n =>
    simp only [IsTypeName] at hx
    simp only [printType, printIdent] at h
    simp only [mean, meaning]
    by_cases hm : n ∈ env.types
    · rw [if_pos (by simpa using hm)] at h
      by_cases hp : env.pref = []
      · simp [hp] at h
        rw [if_neg (by simp [hp])]
        subst h
        exact .bare hx
      · have hlen : env.pref.length > 0 := by
          cases hh : env.pref with
          | nil => exact absurd hh hp
          | cons => simp
        rw [if_pos hlen] at h
        rw [if_pos ⟨hm, hp⟩]
        split at h <;> simp at h
        subst h
        have := NameText.qual (he.pref.resolve_left hp) hx
        simpa using this
    · rw [if_neg (by simpa using hm)] at h
      rw [if_neg (by simp [hm])]
      simp at h
      rw [he.raw.ident n hx] at h
      subst h
      exact .bare hx
  | selector y b =>
    cases y <;> simp only [IsTypeName] at hx
    simp only [printType, Res.ok.injEq] at h
    rw [he.raw.selector _ _ hx.1 hx.2] at h
    subst h
    exact .qual hx.1 hx.2
  | _ => simp [IsTypeName] at hx

/-- How a list of type arguments is printed. -/
theorem printIndices_join {env : PrintEnv} : ∀ (es : List Expr) (b s : Str), es ≠ [] →
    printIndices env b es = .ok s → ∃ ss : List Str, ss.length = es.length ∧
      s = b ++ join g!", " ss ++ g!"]" ∧
      ∀ (i : Nat) e t, es[i]? = some e → ss[i]? = some t → printType env e = .ok t
  | [], _, _, h0, _ => absurd rfl h0
  | [e], b, s, _, h => by
    simp only [printIndices, Res.bind_eq_ok, List.isEmpty_nil, if_true] at h
    obtain ⟨t, ht, h⟩ := h
    simp at h
    refine ⟨[t], rfl, by simp [← h, join], ?_⟩
    intro i e' t' he ht'
    match i with
    | 0 => simp at he ht'; subst he ht'; exact ht
    | i + 1 => simp at he
  | e :: e' :: es, b, s, _, h => by
    rw [printIndices] at h
    simp only [Res.bind_eq_ok, List.isEmpty_cons, Bool.false_eq_true, if_false] at h
    obtain ⟨t, ht, h⟩ := h
    obtain ⟨ss, hl, hs, hok⟩ := printIndices_join (e' :: es) _ s (by simp) h
    refine ⟨t :: ss, by simp [hl], ?_, ?_⟩
    · cases ss with
      | nil => simp at hl
      | cons a c => rw [hs]; simp [join]
    · intro i x y hx hy
      match i with
      | 0 => simp at hx hy; subst hx hy; exact ht
      | i + 1 => exact hok i x y (by simpa using hx) (by simpa using hy)

theorem NameText.not_arrow {t s} (h : NameText t s) (rest : Str) : ∀ r, s ++ rest ≠ '<' :: r := by
  obtain ⟨c, q, rfl, hc⟩ := h.start
  intro r e
  injection e with e _
  subst e
  exact absurd hc (by decide)

theorem typeShape_field {fs : List Field} (h : TypeShapeFields fs) : ∀ f ∈ fs, TypeShapeField f := by
  induction fs with
  | nil => simp
  | cons f fs ih =>
    simp only [TypeShapeFields] at h
    intro g hg
    rcases List.mem_cons.1 hg with rfl | hg
    · exact h.1
    · exact ih h.2 g hg

mutual
theorem printType_says (env : PrintEnv) (he : EnvOk env) : ∀ (e : Expr) (s : Str), TypeShape e →
    printType env e = .ok s → TextOk (mean env e) s ∧ ((∀ x, e ≠ .chanT .recv x) → ∀ r, s ≠ '<' :: r)
  | .ident n, s, ht, h => by
    have := typeName_text he (x := .ident n) (by simpa [IsTypeName, TypeShape] using ht) h
    exact ⟨this.ok, fun _ => by simpa using this.not_arrow []⟩
  | .selector x b, s, ht, h => by
    have := typeName_text he (x := .selector x b) (by simpa [TypeShape] using ht) h
    exact ⟨this.ok, fun _ => by simpa using this.not_arrow []⟩
  | .star x, s, ht, h => by
    simp only [printType, Res.bind_eq_ok] at h
    obtain ⟨t, h1, h2⟩ := h
    cases h2
    simp only [TypeShape] at ht
    simp only [mean, meaning]
    exact ⟨ptr_ok (printType_says env he x t ht h1).1, fun _ r e => by cases e⟩
  | .ellipsis x, s, ht, h => by
    simp only [printType, Res.bind_eq_ok] at h
    obtain ⟨t, h1, h2⟩ := h
    cases h2
    simp only [TypeShape] at ht
    simp only [mean, meaning]
    exact ⟨variadic_ok (printType_says env he x t ht h1).1, fun _ r e => by cases e⟩
  | .array none x, s, ht, h => by
    simp only [printType, Res.bind_eq_ok] at h
    obtain ⟨t, h1, h2⟩ := h
    cases h2
    simp only [TypeShape] at ht
    simp only [mean, meaning, printRaw]
    exact ⟨slice_ok (printType_says env he x t ht.2 h1).1, fun _ r e => by cases e⟩
  | .array (some l) x, s, ht, h => by
    simp only [printType, Res.bind_eq_ok] at h
    obtain ⟨t, h1, h2⟩ := h
    cases h2
    simp only [TypeShape, LenShapeOpt] at ht
    simp only [mean, meaning, printRaw]
    obtain ⟨hb, hn⟩ := he.raw.expr l ht.1
    exact ⟨arr_ok hb hn (printType_says env he x t ht.2 h1).1, fun _ r e => by cases e⟩
  | .mapT k v, s, ht, h => by
    simp only [printType, Res.bind_eq_ok] at h
    obtain ⟨t, h1, u, h2, h3⟩ := h
    cases h3
    simp only [TypeShape] at ht
    simp only [mean, meaning]
    exact ⟨map_ok (printType_says env he k t ht.1 h1).1 (printType_says env he v u ht.2 h2).1,
      fun _ r e => by cases e⟩
  | .chanT d v, s, ht, h => by
    simp only [printType, Res.bind_eq_ok] at h
    obtain ⟨t, h1, h2⟩ := h
    cases h2
    simp only [TypeShape] at ht
    simp only [mean, meaning]
    have hv := printType_says env he v t ht.1 h1
    cases d with
    | both => exact ⟨chan_both_ok hv.1 (hv.2 (ht.2 rfl)), fun _ r e => by cases e⟩
    | send => exact ⟨chan_send_ok hv.1, fun _ r e => by cases e⟩
    | recv => exact ⟨chan_recv_ok hv.1, fun hne => absurd rfl (hne v)⟩
  | .funcT ps rs, s, ht, h => by
    simp only [printType, Res.bind_eq_ok] at h
    obtain ⟨pss, h1, rss, h2, h3⟩ := h
    cases h3
    simp only [TypeShape] at ht
    simp only [mean, meaning]
    obtain ⟨hl1, hg1⟩ := printFields_says env he ps pss ht.1 h1
    obtain ⟨hl2, hg2, hr2⟩ := printResults_says env he rs rss ht.2.2 h2
    refine ⟨func_ok (groups_read hl1 hg1) (groups_read hl2 hg2) (resolve_groups (meaningFields_uniform ht.2.1))
      (resolve_groups hr2), fun _ r e => by simp at e⟩
  | .structT fs, s, ht, h => by
    simp only [printType, Res.bind_eq_ok] at h
    obtain ⟨ss, h1, h3⟩ := h
    cases h3
    simp only [TypeShape] at ht
    simp only [mean, meaning]
    obtain ⟨hl, hg⟩ := printFields_says env he fs ss ht h1
    exact ⟨struct_ok hl (fun i t s h h' => (hg i t s h h').field), fun _ r e => by simp at e⟩
  | .index x i, s, ht, h => by
    simp only [printType, Res.bind_eq_ok] at h
    obtain ⟨t, h1, u, h2, h3⟩ := h
    cases h3
    simp only [TypeShape] at ht
    simp only [mean, meaning]
    have hx := typeName_text he ht.1 h1
    have hi := (printType_says env he i u ht.2 h2).1
    have := hx.inst (ts := [mean env i]) (ss := [u]) rfl (by simp) (by
      intro k a b ha hb
      match k with
      | 0 => simp at ha hb; subst ha hb; exact hi
      | k + 1 => simp at ha)
    refine ⟨by simpa [join] using this, fun _ r e => ?_⟩
    rw [List.append_assoc, List.append_assoc] at e
    exact hx.not_arrow _ r e
  | .indexList x is, s, ht, h => by
    rw [printType] at h
    simp only [Res.bind_eq_ok] at h
    obtain ⟨t, h1, h2⟩ := h
    simp only [TypeShape] at ht
    simp only [mean, meaning]
    have hx := typeName_text he ht.1 h1
    obtain ⟨ss, hl, rfl, hok⟩ := printIndices_join is _ s ht.2.1 h2
    obtain ⟨hl', hm⟩ := list_says env he is ss ht.2.2 hl hok
    refine ⟨hx.inst hl' (by
        intro e
        have := hl'.symm.trans (congrArg List.length e)
        rw [hl] at this
        exact ht.2.1 (List.length_eq_zero_iff.1 (by simpa using this))) hm, fun _ r e => ?_⟩
    rw [List.append_assoc, List.append_assoc] at e
    exact hx.not_arrow _ r e
  | .ifaceT ms, s, _, h => by
    simp only [printType, Res.ok.injEq] at h
    obtain ⟨b, hb, e⟩ := he.raw.iface ms
    simp only [mean, meaning]
    rw [← h, e]
    exact ⟨iface_ok hb, fun _ r e => by simp at e⟩
  | .paren x, s, _, h => by
    simp only [printType, Res.ok.injEq] at h
    obtain ⟨b, hb, e⟩ := he.raw.paren x
    simp only [mean, meaning]
    rw [← h, e]
    exact ⟨paren_ok hb, fun _ r e => by simp at e⟩
  | .sliceExpr _, _, ht, _ => by simp [TypeShape] at ht
  | .lit _, _, ht, _ => by simp [TypeShape] at ht
  | .unary _ _, _, ht, _ => by simp [TypeShape] at ht
  | .binary _ _ _, _, ht, _ => by simp [TypeShape] at ht
  | .other _, _, ht, _ => by simp [TypeShape] at ht
theorem printField_says (env : PrintEnv) (he : EnvOk env) : ∀ (f : Field) (s : Str), TypeShapeField f →
    printField env f = .ok s → GroupText (meaningField env.raw env.types env.pref f) s
  | .mk _ _ names t _, s, ht, h => by
    simp only [printField, Res.bind_eq_ok] at h
    obtain ⟨ts, h1, h2⟩ := h
    cases h2
    simp only [TypeShapeField] at ht
    exact ⟨names, mean env t, ts, by simp only [meaningField], rfl, ht.1, (printType_says env he t ts ht.2 h1).1⟩
theorem printFields_says (env : PrintEnv) (he : EnvOk env) : ∀ (fs : List Field) (ss : List Str),
    TypeShapeFields fs → printFields env fs = .ok ss →
    (meaningFields env.raw env.types env.pref fs).length = ss.length ∧
    ∀ (i : Nat) f s, (meaningFields env.raw env.types env.pref fs)[i]? = some f → ss[i]? = some s → GroupText f s
  | [], ss, _, h => by
    simp only [printFields, Res.ok.injEq] at h
    subst h
    exact ⟨by simp [meaningFields], by simp [meaningFields]⟩
  | f :: fs, ss, ht, h => by
    simp only [printFields, Res.bind_eq_ok] at h
    obtain ⟨t, h1, ts, h2, h3⟩ := h
    cases h3
    simp only [TypeShapeFields] at ht
    have hf := printField_says env he f t ht.1 h1
    obtain ⟨hl, hs⟩ := printFields_says env he fs ts ht.2 h2
    refine ⟨by simp [meaningFields, hl], ?_⟩
    intro i g u hg hu
    simp only [meaningFields] at hg
    match i with
    | 0 => simp at hg hu; subst hg hu; exact hf
    | i + 1 => exact hs i g u (by simpa using hg) (by simpa using hu)
theorem printResults_says (env : PrintEnv) (he : EnvOk env) : ∀ (fs : Option (List Field)) (ss : List Str),
    TypeShapeOpt fs → printResults env fs = .ok ss →
    (meaningOpt env.raw env.types env.pref fs).length = ss.length ∧
    (∀ (i : Nat) f s, (meaningOpt env.raw env.types env.pref fs)[i]? = some f → ss[i]? = some s → GroupText f s) ∧
    ((∀ f ∈ meaningOpt env.raw env.types env.pref fs, ∃ t, f = .mk [] t) ∨
    (∀ f ∈ meaningOpt env.raw env.types env.pref fs, ∃ names t, f = .mk names t ∧ names ≠ []))
  | none, ss, _, h => by
    simp only [printResults, Res.ok.injEq] at h
    subst h
    exact ⟨by simp [meaningOpt], by simp [meaningOpt], Or.inl (by simp [meaningOpt])⟩
  | some fs, ss, ht, h => by
    simp only [printResults] at h
    simp only [TypeShapeOpt] at ht
    obtain ⟨hl, hs⟩ := printFields_says env he fs ss ht.1 h
    simp only [meaningOpt]
    exact ⟨hl, hs, meaningFields_uniform ht.2⟩
theorem list_says (env : PrintEnv) (he : EnvOk env) : ∀ (es : List Expr) (ss : List Str),
    TypeShapeList es → ss.length = es.length →
    (∀ (i : Nat) e t, es[i]? = some e → ss[i]? = some t → printType env e = .ok t) →
    (meaningList env.raw env.types env.pref es).length = ss.length ∧
    ∀ (i : Nat) t s, (meaningList env.raw env.types env.pref es)[i]? = some t → ss[i]? = some s → TextOk t s
  | [], ss, _, hl, _ => by
    have : ss = [] := List.length_eq_zero_iff.1 hl
    subst this
    exact ⟨by simp [meaningList], by simp [meaningList]⟩
  | e :: es, [], _, hl, _ => by simp at hl
  | e :: es, s :: ss, ht, hl, h => by
    simp only [TypeShapeList] at ht
    have h1 := (printType_says env he e s ht.1 (h 0 e s rfl rfl)).1
    obtain ⟨h2, h3⟩ := list_says env he es ss ht.2 (by simpa using hl)
      (fun i a b ha hb => h (i + 1) a b (by simpa using ha) (by simpa using hb))
    refine ⟨by simp [meaningList, h2], ?_⟩
    intro i t u htt hu
    simp only [meaningList] at htt
    match i with
    | 0 => simp at htt hu; subst htt hu; exact h1
    | i + 1 => exact h3 i t u (by simpa using htt) (by simpa using hu)
end

/-- A printed type says what it should. -/
theorem printType_meaning {env : PrintEnv} (he : EnvOk env) {e : Expr} {s : Str} (ht : TypeShape e)
    (h : printType env e = .ok s) : Says s (meaning env.raw env.types env.pref e) := by
  have := (printType_says env he e s ht h).1.reads [] (Or.inl rfl)
  simpa [Says, Eventually] using this

end Gowrap
