import Verif.Spec.TypeParams
import Verif.Model.Generics
import Verif.Proofs.Text
import Verif.Proofs.TypeText
import Verif.Props.Printer
/-!
# Properties of generator/generics.go (C17, C18)
-/

namespace Gowrap.Props

open Gowrap Gowrap.Spec Gowrap.Demo

/-! ## C17: declaration and instantiation list the same type parameters -/

/-- Joining with a leading separator for a non-empty list. -/
def sepJoin (sep : Str) : List Str → Str
  | [] => []
  | xs => sep ++ join g!", " xs

theorem varsName_params : ∀ (names : List Str) (p s : Str) (b bs : Str),
    (names.foldl varsName { paramsByType := b, paramsByTypeSep := bs, params := p, paramsSep := s }) =
      { paramsByType := b ++ sepJoin bs names
        paramsByTypeSep := if names = [] then bs else g!", "
        params := p ++ sepJoin s names
        paramsSep := if names = [] then s else g!", " }
  | [], p, s, b, bs => by simp [sepJoin]
  | [n], p, s, b, bs => by simp [sepJoin, varsName, join]
  | n :: m :: ns, p, s, b, bs => by
    rw [List.foldl_cons]
    simp only [varsName]
    rw [varsName_params (m :: ns)]
    simp [sepJoin, join]

/-- The text of a group. -/
def groupText (g : GType) : Str := join g!", " g.names ++ g!" " ++ g.type

theorem sepJoin_cons (sep : Str) (xs ys : List Str) (hx : xs ≠ []) :
    sepJoin sep xs ++ sepJoin g!", " ys = sepJoin sep (xs ++ ys) := by
  cases ys with
  | nil => simp [sepJoin]
  | cons y ys =>
    obtain ⟨x, xs, rfl⟩ := List.exists_cons_of_ne_nil hx
    have := join_append g!", " (x :: xs) (y :: ys) (by simp) (by simp)
    simp only [sepJoin, List.cons_append] at this ⊢
    rw [this]
    simp

theorem varsType_fold : ∀ (g : List GType) (st : VarsOuter),
    (∀ x ∈ g, x.names ≠ [] ∧ ∀ n ∈ x.names, n ≠ []) →
    (g.foldl varsType st).types = st.types ++ sepJoin st.typesSep (g.map groupText) ∧
    (g.foldl varsType st).params = st.params ++ sepJoin st.paramsSep (g.flatMap (·.names))
  | [], st, _ => by simp [sepJoin]
  | x :: g, st, h => by
    obtain ⟨hx, hn⟩ := h x (by simp)
    have hstep : varsType st x =
        { types := st.types ++ st.typesSep ++ groupText x
          typesSep := g!", "
          params := st.params ++ sepJoin st.paramsSep x.names
          paramsSep := g!", " } := by
      unfold varsType
      rw [varsName_params]
      obtain ⟨n, ns, e⟩ := List.exists_cons_of_ne_nil hx
      have hne : ([] : Str) ++ sepJoin [] x.names ≠ [] := by
        rw [e]
        have := join_ne_nil (sep := g!", ") (xs := n :: ns) (by simp) (fun y hy => hn y (by rw [e]; exact hy))
        simpa [sepJoin] using this
      simp only [hne, ne_eq, not_false_eq_true, if_true, if_neg hx]
      simp [groupText, e, sepJoin]
    rw [List.foldl_cons, hstep]
    obtain ⟨h1, h2⟩ := varsType_fold g
      { types := st.types ++ st.typesSep ++ groupText x, typesSep := g!", ",
        params := st.params ++ sepJoin st.paramsSep x.names, paramsSep := g!", " }
      (fun y hy => h y (by simp [hy]))
    rw [h1, h2]
    constructor
    · have := sepJoin_cons st.typesSep [groupText x] (g.map groupText) (by simp)
      simp only [List.singleton_append] at this
      rw [List.map_cons, ← this]
      simp [sepJoin, join]
    · simp only [List.flatMap_cons, List.append_assoc]
      rw [sepJoin_cons _ _ _ hx]

theorem buildVars_eq (g : List GType) (h : ∀ x ∈ g, x.names ≠ [] ∧ ∀ n ∈ x.names, n ≠ []) :
    buildVars g = (buildGenericsWithBrackets (join g!", " (g.map groupText)),
      buildGenericsWithBrackets (join g!", " (g.flatMap (·.names)))) := by
  have := varsType_fold g {} h
  unfold buildVars
  simp only [this.1, this.2]
  cases g with
  | nil => rfl
  | cons x g =>
    obtain ⟨n, ns, e⟩ := List.exists_cons_of_ne_nil (h x (by simp)).1
    simp [sepJoin, e]

theorem unbracket_brackets {s : Str} : unbracket (buildGenericsWithBrackets s) = some s := by
  unfold buildGenericsWithBrackets
  split
  · have : g!"[" ++ s ++ g!"]" = '[' :: (s ++ g!"]") := by simp
    rw [this]
    simp [unbracket]
  · rename_i h
    have : s = [] := by simpa using h
    subst this
    rfl

/-- The pieces of a declaration list. -/
def declPieces (g : GType) : List Str := g.names.dropLast ++ [g.names.getLastD [] ++ g!" " ++ g.type]

theorem groupText_pieces {g : GType} (h : g.names ≠ []) : groupText g = join g!", " (declPieces g) := by
  have := join_pieces g.names g.type
  obtain ⟨n, ns, e⟩ := List.exists_cons_of_ne_nil h
  unfold groupText declPieces
  rw [this]
  simp only [piecesOf, e]

theorem collect_group (names : List Str) (hn : names ≠ []) (hp : ∀ n ∈ names, PlainName n) (c : Str)
    (rest : List Str) : ∀ (acc : List Str),
    collect acc (names.dropLast ++ [names.getLastD [] ++ g!" " ++ c] ++ rest) =
      (collect [] rest).map fun gs => (acc ++ names, c) :: gs := by
  match names, hn with
  | n :: ns, _ =>
    induction ns generalizing n with
    | nil =>
      intro acc
      have hpl := hp n (by simp)
      have hs : splitAtChar ' ' (n ++ g!" " ++ c) = (n, ' ' :: c) := by
        rw [List.append_assoc]
        exact splitAtChar_not_mem ' ' n c (fun hm => (plain_chars hpl ' ' hm).2.2.2.2.1 rfl)
      simp only [List.dropLast_singleton, List.nil_append, List.getLastD_cons, List.getLastD_nil,
        List.singleton_append, collect, hs]
    | cons m ms ih =>
      intro acc
      have hpl := hp n (by simp)
      have hs : splitAtChar ' ' n = (n, []) :=
        splitAtChar_all ' ' n (fun hm => (plain_chars hpl ' ' hm).2.2.2.2.1 rfl)
      have e1 : (n :: m :: ms).dropLast = n :: (m :: ms).dropLast := rfl
      have e2 : (n :: m :: ms).getLastD [] = (m :: ms).getLastD [] := by simp [List.getLastD_cons]
      rw [e1, e2, List.cons_append, List.cons_append, collect, hs]
      simp only
      rw [ih m (by simp) (fun k hk => hp k (by simp [hk]))]
      simp

theorem collect_groups : ∀ (g : List GType), (∀ x ∈ g, x.names ≠ [] ∧ ∀ n ∈ x.names, PlainName n) →
    collect [] (g.flatMap declPieces) = some (g.map fun x => (x.names, x.type))
  | [], _ => rfl
  | x :: g, h => by
    rw [List.flatMap_cons]
    have hx := h x (by simp)
    unfold declPieces
    rw [collect_group x.names hx.1 hx.2]
    have := collect_groups g (fun y hy => h y (by simp [hy]))
    unfold declPieces at this
    rw [this]
    simp

/-- The names used in a constraint are identifiers. -/
def PlainConstraint : Expr → Prop
  | .ident n => PlainName n
  | .selector (.ident a) b => PlainName a ∧ PlainName b
  | .unary _ x => PlainConstraint x
  | .binary _ x y => PlainConstraint x ∧ PlainConstraint y
  | _ => True

theorem constraint_closed (allTypes : List Str) (pref : Str) (hpref : pref = [] ∨ PlainName pref) :
    ∀ (e : Expr) {c : Str}, PlainConstraint e → parseGenericType allTypes pref e = .ok c → Closed c := by
  have hnil : Closed [] := by decide
  intro e
  induction e using parseGenericType.induct with
  | case1 n =>
    intro c h hc
    simp only [PlainConstraint] at h
    simp only [parseGenericType, Res.ok.injEq] at hc
    subst hc
    refine Spec.Closed.append ?_ (plain_closed h)
    unfold getPrefix
    split
    · exact hnil
    · rename_i hp
      split
      · exact (plain_closed (hpref.resolve_left hp)).append (by decide)
      · exact hnil
  | case2 sel n =>
    intro c h hc
    simp only [PlainConstraint] at h
    simp only [parseGenericType, Res.ok.injEq] at hc
    subst hc
    exact ((plain_closed h.1).append (by decide)).append (plain_closed h.2)
  | case3 => intro c h hc; simp_all [parseGenericType]
  | case4 n =>
    intro c h hc
    simp only [PlainConstraint] at h
    simp_all [parseGenericType]
    subst hc
    exact Spec.Closed.append (a := g!"~") (by decide) (plain_closed h)
  | case5 => intro c h hc; simp_all [parseGenericType]
  | case6 => intro c h hc; simp_all [parseGenericType]
  | case7 x y ihx ihy =>
    intro c h hc
    simp only [PlainConstraint] at h
    simp only [parseGenericType, if_true, Res.bind_eq_ok] at hc
    obtain ⟨a, ha, b, hb, hc⟩ := hc
    cases hc
    exact ((ihx h.1 ha).append (by decide)).append (ihy h.2 hb)
  | case8 => intro c h hc; simp_all [parseGenericType]
  | case9 => intro c h hc; simp_all [parseGenericType]

/-- **C17.** The two strings list the same type parameters: the declaration has exactly the groups of the
source in source order, each with its constraint text, the instantiation has exactly their names in the
same order; and each string is empty exactly when there is no type parameter.
`cs` are the constraint texts (C18 says what they are). -/
theorem C17_type_params (ts : TypeSpec) (fields : List Field) (allTypes : List Str) (pref : Str) (g : List GType)
    (hts : ts.typeParams.getD [] = fields)
    (hnames : ∀ f ∈ fields, f.names ≠ [] ∧ ∀ n ∈ f.names, PlainName n)
    (hg : buildGenericTypesFromSpec ts allTypes pref = .ok g)
    (hcons : ∀ f ∈ fields, PlainConstraint f.type) (hpref : pref = [] ∨ PlainName pref) :
    ∃ cs : List Str, cs.length = fields.length ∧
      (∀ (i : Nat) f c, fields[i]? = some f → cs[i]? = some c →
        parseGenericType allTypes pref f.type = .ok c) ∧
      readTypeParams (buildVars g).1 = some ((fields.map Field.names).zip cs) ∧
      readTypeArgs (buildVars g).2 = some (fields.flatMap Field.names) ∧
      ((buildVars g).1 = [] ↔ fields = []) ∧ ((buildVars g).2 = [] ↔ fields = []) := by
  have hloop : ∀ (fs : List Field) (g : List GType), genericTypesFromFields allTypes pref fs = .ok g →
      ∃ cs : List Str, cs.length = fs.length ∧
        (∀ (i : Nat) f c, fs[i]? = some f → cs[i]? = some c → parseGenericType allTypes pref f.type = .ok c) ∧
        g.map (·.names) = fs.map Field.names ∧ g.map (·.type) = cs := by
    intro fs
    induction fs with
    | nil =>
      intro g h
      simp only [genericTypesFromFields, Res.ok.injEq] at h
      subst h
      exact ⟨[], rfl, by simp, rfl, rfl⟩
    | cons f fs ih =>
      intro g h
      simp only [genericTypesFromFields, Res.bind_eq_ok] at h
      obtain ⟨c, hc, g', hg', h⟩ := h
      cases h
      obtain ⟨cs, hl, hp, hn, ht⟩ := ih g' hg'
      refine ⟨c :: cs, by simp [hl], ?_, by simp [hn], by simp [ht]⟩
      intro i f' c' hf hc'
      match i with
      | 0 => simp at hf hc'; subst hf hc'; exact hc
      | i + 1 => exact hp i f' c' (by simpa using hf) (by simpa using hc')
  have hfields : genericTypesFromFields allTypes pref fields = .ok g := by
    unfold buildGenericTypesFromSpec at hg
    cases h : ts.typeParams with
    | none =>
      simp only [h, Option.getD_none] at hts hg
      subst hts
      simpa [genericTypesFromFields] using hg
    | some l => simp only [h, Option.getD_some] at hts hg; rw [← hts]; exact hg
  obtain ⟨cs, hl, hp, hn, ht⟩ := hloop fields g hfields
  have hgn : ∀ x ∈ g, x.names ≠ [] ∧ ∀ n ∈ x.names, PlainName n := by
    intro x hx
    have : x.names ∈ fields.map Field.names := by rw [← hn]; exact List.mem_map_of_mem hx
    obtain ⟨f, hf, e⟩ := List.mem_map.1 this
    rw [← e]
    exact hnames f hf
  have hclosed : ∀ x ∈ g, Closed x.type := by
    intro x hx
    have hm : x.type ∈ cs := by rw [← ht]; exact List.mem_map_of_mem hx
    obtain ⟨i, hi⟩ := List.mem_iff_getElem?.1 hm
    have hlt : i < fields.length := by
      rw [← hl]; exact (List.getElem?_eq_some_iff.1 hi).1
    have hf : fields[i]? = some fields[i] := List.getElem?_eq_getElem hlt
    exact constraint_closed allTypes pref hpref _ (hcons _ (List.getElem_mem hlt)) (hp i _ _ hf hi)
  have hgn' : ∀ x ∈ g, x.names ≠ [] ∧ ∀ n ∈ x.names, n ≠ [] :=
    fun x hx => ⟨(hgn x hx).1, fun n hn => ((hgn x hx).2 n hn).1⟩
  have hflat : g.flatMap (·.names) = fields.flatMap Field.names := by
    rw [List.flatMap_def, List.flatMap_def, hn]
  have hlen : g.length = fields.length := by simpa using congrArg List.length hn
  have hitems : items ',' (join g!", " (g.map groupText)) = g.flatMap declPieces := by
    have e : join g!", " (g.map groupText) = join g!", " (g.flatMap declPieces) := by
      have h1 : g.map groupText = (g.map declPieces).map (join g!", ") := by
        rw [List.map_map]
        exact List.map_congr_left fun x hx => groupText_pieces (hgn x hx).1
      rw [h1, join_flatten]
      · rw [List.flatMap_def]
      · intro xs hxs
        obtain ⟨x, _, rfl⟩ := List.mem_map.1 hxs
        simp [declPieces]
    rw [e]
    have hpiece : ∀ p ∈ g.flatMap declPieces, Closed p ∧ Starts p := by
      intro p hp
      obtain ⟨x, hx, hp⟩ := List.mem_flatMap.1 hp
      obtain ⟨h1, h2⟩ := hgn x hx
      obtain ⟨n, ns, en⟩ := List.exists_cons_of_ne_nil h1
      simp only [declPieces, List.mem_append, List.mem_singleton] at hp
      rcases hp with hp | rfl
      · have := h2 p (List.dropLast_subset _ hp)
        exact ⟨plain_closed this, by simpa using plain_starts (rest := []) this⟩
      · have hm : x.names.getLastD [] ∈ x.names := by
          rw [en]
          have := dropLast_getLastD n ns
          rw [← this]; simp
        refine ⟨((plain_closed (h2 _ hm)).append ?_).append (hclosed x hx), ?_⟩
        · decide
        · rw [List.append_assoc]; exact plain_starts (h2 _ hm)
    exact items_join ',' g!" " (by decide) (by decide) (by decide) _ (fun p hp => (hpiece p hp).1.1)
      (fun p hp => (hpiece p hp).2)
  have hargs : items ',' (join g!", " (g.flatMap (·.names))) = g.flatMap (·.names) := by
    have hpl : ∀ n ∈ g.flatMap (·.names), PlainName n := by
      intro n hn
      obtain ⟨x, hx, hn⟩ := List.mem_flatMap.1 hn
      exact (hgn x hx).2 n hn
    exact items_join ',' g!" " (by decide) (by decide) (by decide) _ (fun p hp => (plain_closed (hpl p hp)).1)
      (fun p hp => by simpa using plain_starts (rest := []) (hpl p hp))
  have hbr : ∀ {xs : List Str}, (∀ x ∈ xs, x ≠ []) → (buildGenericsWithBrackets (join g!", " xs) = [] ↔ xs = []) := by
    intro xs hx
    unfold buildGenericsWithBrackets
    constructor
    · intro h
      split at h
      · simp at h
      · rename_i hh
        cases xs with
        | nil => rfl
        | cons a b => exact absurd (by simpa using hh) (join_ne_nil (sep := g!", ") (xs := a :: b) (by simp) hx)
    · rintro rfl; rfl
  rw [buildVars_eq g hgn']
  refine ⟨cs, hl, hp, ?_, ?_, ?_, ?_⟩
  · simp only [readTypeParams, unbracket_brackets, Option.bind_some, hitems]
    rw [collect_groups g hgn, ← hn, ← ht]
    congr 1
    rw [List.zip_map']
  · simp only [readTypeArgs, unbracket_brackets, Option.map_some, hargs]
    rw [hflat]
  · rw [hbr (by
      intro x hx
      obtain ⟨y, _, rfl⟩ := List.mem_map.1 hx
      simp [groupText])]
    constructor
    · intro h
      have : g = [] := by simpa using h
      subst this
      exact List.length_eq_zero_iff.1 (by simpa using hlen.symm)
    · rintro rfl
      have : g = [] := List.length_eq_zero_iff.1 (by simpa using hlen)
      subst this; rfl
  · rw [hbr (by
      intro x hx
      obtain ⟨y, hy, hx⟩ := List.mem_flatMap.1 hx
      exact (hgn' y hy).2 x hx)]
    constructor
    · intro h
      cases fields with
      | nil => rfl
      | cons f fs =>
        rw [hflat] at h
        have := (hnames f (by simp)).1
        simp [this] at h
    · rintro rfl
      have : g = [] := List.length_eq_zero_iff.1 (by simpa using hlen)
      subst this; rfl

/-- `type Store[K, V comparable, T ~int | foo] interface{...}` -/
def storeSpec : TypeSpec :=
  ⟨g!"Store", some [fld [g!"K", g!"V"] (.ident g!"comparable"),
    fld [g!"T"] (.binary true (.unary true int_) (.selector (.ident g!"fmt") g!"Stringer"))], .ifaceT []⟩

def storeTypes : List GType := [⟨g!"comparable", [g!"K", g!"V"]⟩, ⟨g!"~int | fmt.Stringer", [g!"T"]⟩]

example : buildGenericTypesFromSpec storeSpec [g!"Bar"] g!"foo" = .ok storeTypes ∧
    (∀ f ∈ storeSpec.typeParams.getD [], (f.names ≠ [] ∧ ∀ n ∈ f.names, PlainName n) ∧ PlainConstraint f.type) ∧
    buildVars storeTypes = (g!"[K, V comparable, T ~int | fmt.Stringer]", g!"[K, V, T]") := by
  refine ⟨by rfl, ?_, by rfl⟩
  simp only [storeSpec, Option.getD_some, List.mem_cons, List.not_mem_nil, or_false]
  rintro f (rfl | rfl) <;> refine ⟨by decide, ?_⟩ <;> simp only [PlainConstraint, fld, Field.type, int_] <;> decide

/-! ## C18: constraints -/

/-- The full claim. -/
def C18_full : Prop :=
  ∀ (raw : Expr → Str) (decls : List Str) (pref : Str) (e : Expr) (s : Str), RawOk raw →
    (pref = [] ∨ IdentOk pref) → ConstraintShape e → parseGenericType decls pref e = .ok s →
    SaysUnion s (unionMeaning raw decls pref e)

/-- Constraints that are handled: unions of named types and of `~` named types of no package. -/
def Supported (decls : List Str) (pref : Str) : Expr → Prop
  | .binary o x y => o = true ∧ Supported decls pref x ∧ Supported decls pref y
  | .unary o (.ident n) => o = true ∧ IdentOk n ∧ ¬ (n ∈ decls ∧ pref ≠ [])
  | .ident n => IdentOk n
  | .selector (.ident a) b => IdentOk a ∧ IdentOk b
  | _ => False

/-- A piece of a printed union. -/
structure PieceText (s : Str) : Prop where
  ne : s ≠ []
  noBar : '|' ∉ s
  noSpace : ∀ c ∈ s, c ≠ ' ' ∧ c ≠ '\n'

theorem splitBar_piece {p : Str} (hp : '|' ∉ p) (rest : Str) : ∀ cur,
    splitBar cur (p ++ rest) = splitBar (p.reverse ++ cur) rest := by
  induction p with
  | nil => intro cur; rfl
  | cons c p ih =>
    intro cur
    have hc : c ≠ '|' := fun e => hp (by simp [e])
    simp only [List.cons_append, splitBar, if_neg hc]
    rw [ih (fun h => hp (by simp [h]))]
    simp

theorem trimLeft_noSpace {s : Str} (h : ∀ c ∈ s, c ≠ ' ' ∧ c ≠ '\n') : trimLeft s = s := by
  cases s with
  | nil => rfl
  | cons c s => simp [trimLeft, h c (by simp)]

theorem trimSpaces_pad {p : Str} (h : PieceText p) (a b : Str) (ha : a = [] ∨ a = g!" ") (hb : b = [] ∨ b = g!" ") :
    trimSpaces (a ++ p ++ b) = p := by
  obtain ⟨c, q, e⟩ := List.exists_cons_of_ne_nil h.ne
  have hc := h.noSpace c (by simp [e])
  have h1 : trimLeft (a ++ p ++ b) = p ++ b := by
    rw [e]
    rcases ha with rfl | rfl <;> simp [trimLeft, hc]
  unfold trimSpaces
  rw [h1, List.reverse_append]
  have hr : trimLeft p.reverse = p.reverse := trimLeft_noSpace (fun c hc => h.noSpace c (by simpa using hc))
  have h2 : trimLeft (b.reverse ++ p.reverse) = p.reverse := by
    rcases hb with rfl | rfl
    · exact hr
    · simpa [trimLeft] using hr
  rw [h2, List.reverse_reverse]

theorem splitBar_join : ∀ (ps : List Str) (a : Str), ps ≠ [] → (∀ p ∈ ps, PieceText p) → (a = [] ∨ a = g!" ") →
    (splitBar a (join g!" | " ps)).map trimSpaces = ps
  | [], _, h, _, _ => absurd rfl h
  | [p], a, _, h, ha => by
    have hp := h p (by simp)
    have := splitBar_piece hp.noBar [] a
    simp only [List.append_nil] at this
    simp only [join, this, splitBar, List.map_cons, List.map_nil, List.reverse_append, List.reverse_reverse]
    have := trimSpaces_pad hp a.reverse [] (by rcases ha with rfl | rfl <;> simp) (Or.inl rfl)
    simpa using this
  | p :: q :: ps, a, _, h, ha => by
    have hp := h p (by simp)
    have ih := splitBar_join (q :: ps) g!" " (by simp) (fun x hx => h x (by simp [hx])) (Or.inr rfl)
    simp only [join, List.append_assoc]
    rw [splitBar_piece hp.noBar]
    simp only [List.cons_append, List.nil_append, splitBar, show (' ' : Char) ≠ '|' by decide, if_false, if_true,
      List.map_cons, ih]
    congr 1
    have := trimSpaces_pad hp a.reverse g!" " (by rcases ha with rfl | rfl <;> simp) (Or.inr rfl)
    simpa using this

theorem identOk_piece {n : Str} (h : IdentOk n) : PieceText n :=
  ⟨h.1, fun hm => absurd (h.2.1 '|' hm) (by decide), fun c hc =>
    ⟨fun e => absurd (h.2.1 c hc) (by rw [e]; decide), fun e => absurd (h.2.1 c hc) (by rw [e]; decide)⟩⟩

theorem qual_piece {a b : Str} (ha : PieceText a) (hb : PieceText b) : PieceText (a ++ g!"." ++ b) := by
  refine ⟨by simp, ?_, ?_⟩
  · simp only [List.mem_append, not_or]
    exact ⟨⟨ha.noBar, by decide⟩, hb.noBar⟩
  · intro c hc
    simp only [List.mem_append] at hc
    rcases hc with (hc | hc) | hc
    · exact ha.noSpace c hc
    · simp at hc; subst hc; decide
    · exact hb.noSpace c hc

theorem nameText_says {t s} (h : NameText t s) : Says s t := by
  have := h.ok.reads [] (Or.inl rfl)
  simpa [Says, Eventually] using this

theorem nameText_term {t s} (h : NameText t s) : SaysTerm s ⟨false, t⟩ := by
  unfold SaysTerm
  obtain ⟨c, r, e, hc⟩ := h.start
  split
  · rename_i r'
    injection e with e1 _
    subst e1
    exact absurd hc (by decide)
  · exact ⟨rfl, nameText_says h⟩

theorem constraint_pieces (raw : Expr → Str) (decls : List Str) (pref : Str) (hpref : pref = [] ∨ IdentOk pref) :
    ∀ (e : Expr), Supported decls pref e →
    ∃ ps : List Str, ps ≠ [] ∧ parseGenericType decls pref e = .ok (join g!" | " ps) ∧ (∀ p ∈ ps, PieceText p) ∧
      ps.length = (unionMeaning raw decls pref e).length ∧
      ∀ (i : Nat) p t, ps[i]? = some p → (unionMeaning raw decls pref e)[i]? = some t → SaysTerm p t
  | .ident n, h => by
    simp only [Supported] at h
    have key : ∃ s, parseGenericType decls pref (.ident n) = .ok s ∧ PieceText s ∧
        NameText (meaning raw decls pref (.ident n)) s := by
      simp only [parseGenericType, getPrefix, meaning]
      by_cases hp : pref = []
      · simp only [hp, if_true, ne_eq, not_true_eq_false, and_false, if_false, List.nil_append]
        exact ⟨n, rfl, identOk_piece h, .bare h⟩
      · rw [if_neg hp]
        have hpo := hpref.resolve_left hp
        by_cases hm : n ∈ decls
        · rw [if_pos (by simpa using hm), if_pos ⟨hm, hp⟩]
          exact ⟨_, rfl, qual_piece (identOk_piece hpo) (identOk_piece h), .qual hpo h⟩
        · rw [if_neg (by simpa using hm), if_neg (by simp [hm])]
          exact ⟨_, rfl, identOk_piece h, .bare h⟩
    obtain ⟨s, h1, h2, h3⟩ := key
    refine ⟨[s], by simp, by simpa [join] using h1, by simpa using h2, by simp [unionMeaning], ?_⟩
    intro i p t hp ht
    match i with
    | 0 =>
      simp [unionMeaning] at hp ht
      subst hp ht
      exact nameText_term h3
    | i + 1 => simp at hp
  | .selector (.ident a) b, h => by
    simp only [Supported] at h
    refine ⟨[a ++ g!"." ++ b], by simp, by simp [join, parseGenericType],
      by simpa using qual_piece (identOk_piece h.1) (identOk_piece h.2), by simp [unionMeaning], ?_⟩
    intro i p t hp ht
    match i with
    | 0 =>
      simp only [unionMeaning, List.getElem?_cons_zero, Option.some.injEq, meaning] at hp ht
      subst hp ht
      exact nameText_term (.qual h.1 h.2)
    | i + 1 => simp at hp
  | .unary o (.ident n), h => by
    simp only [Supported] at h
    obtain ⟨rfl, hn, hnd⟩ := h
    refine ⟨[g!"~" ++ n], by simp, by simp [join, parseGenericType], ?_, by simp [unionMeaning], ?_⟩
    · intro p hp
      simp only [List.mem_singleton] at hp
      subst hp
      have := identOk_piece hn
      refine ⟨by simp, ?_, ?_⟩
      · simp only [List.mem_append, not_or]; exact ⟨by decide, this.noBar⟩
      · intro c hc
        simp only [List.mem_append, List.mem_singleton] at hc
        rcases hc with rfl | hc
        · decide
        · exact this.noSpace c hc
    · intro i p t hp ht
      match i with
      | 0 =>
        simp only [unionMeaning, List.getElem?_cons_zero, Option.some.injEq, meaning, if_neg hnd] at hp ht
        subst hp ht
        exact ⟨rfl, nameText_says (.bare hn)⟩
      | i + 1 => simp at hp
  | .binary o x y, h => by
    simp only [Supported] at h
    obtain ⟨rfl, hx, hy⟩ := h
    obtain ⟨ps, n1, p1, c1, l1, s1⟩ := constraint_pieces raw decls pref hpref x hx
    obtain ⟨qs, n2, p2, c2, l2, s2⟩ := constraint_pieces raw decls pref hpref y hy
    refine ⟨ps ++ qs, by simp [n1], ?_, ?_, by simp [unionMeaning, l1, l2], ?_⟩
    · simp only [parseGenericType, p1, p2, if_true, Res.ok_bind, Res.pure_eq]
      rw [join_append _ _ _ n1 n2]
    · intro p hp
      rcases List.mem_append.1 hp with hp | hp
      · exact c1 p hp
      · exact c2 p hp
    · intro i p t hp ht
      simp only [unionMeaning] at ht
      by_cases hi : i < ps.length
      · rw [List.getElem?_append_left hi] at hp
        rw [List.getElem?_append_left (by omega)] at ht
        exact s1 i p t hp ht
      · rw [List.getElem?_append_right (by omega)] at hp
        rw [List.getElem?_append_right (by omega)] at ht
        rw [l1] at hp
        exact s2 _ p t hp ht
  | .selector (.selector _ _) _, h => by simp [Supported] at h
  | .selector (.star _) _, h => by simp [Supported] at h
  | .selector (.sliceExpr _) _, h => by simp [Supported] at h
  | .selector (.ellipsis _) _, h => by simp [Supported] at h
  | .selector (.array _ _) _, h => by simp [Supported] at h
  | .selector (.mapT _ _) _, h => by simp [Supported] at h
  | .selector (.chanT _ _) _, h => by simp [Supported] at h
  | .selector (.funcT _ _) _, h => by simp [Supported] at h
  | .selector (.structT _) _, h => by simp [Supported] at h
  | .selector (.ifaceT _) _, h => by simp [Supported] at h
  | .selector (.index _ _) _, h => by simp [Supported] at h
  | .selector (.indexList _ _) _, h => by simp [Supported] at h
  | .selector (.paren _) _, h => by simp [Supported] at h
  | .selector (.lit _) _, h => by simp [Supported] at h
  | .selector (.unary _ _) _, h => by simp [Supported] at h
  | .selector (.binary _ _ _) _, h => by simp [Supported] at h
  | .selector (.other _) _, h => by simp [Supported] at h
  | .unary _ (.selector _ _), h => by simp [Supported] at h
  | .unary _ (.star _), h => by simp [Supported] at h
  | .unary _ (.sliceExpr _), h => by simp [Supported] at h
  | .unary _ (.ellipsis _), h => by simp [Supported] at h
  | .unary _ (.array _ _), h => by simp [Supported] at h
  | .unary _ (.mapT _ _), h => by simp [Supported] at h
  | .unary _ (.chanT _ _), h => by simp [Supported] at h
  | .unary _ (.funcT _ _), h => by simp [Supported] at h
  | .unary _ (.structT _), h => by simp [Supported] at h
  | .unary _ (.ifaceT _), h => by simp [Supported] at h
  | .unary _ (.index _ _), h => by simp [Supported] at h
  | .unary _ (.indexList _ _), h => by simp [Supported] at h
  | .unary _ (.paren _), h => by simp [Supported] at h
  | .unary _ (.lit _), h => by simp [Supported] at h
  | .unary _ (.unary _ _), h => by simp [Supported] at h
  | .unary _ (.binary _ _ _), h => by simp [Supported] at h
  | .unary _ (.other _), h => by simp [Supported] at h
  | .star _, h => by simp [Supported] at h
  | .sliceExpr _, h => by simp [Supported] at h
  | .ellipsis _, h => by simp [Supported] at h
  | .array _ _, h => by simp [Supported] at h
  | .mapT _ _, h => by simp [Supported] at h
  | .chanT _ _, h => by simp [Supported] at h
  | .funcT _ _, h => by simp [Supported] at h
  | .structT _, h => by simp [Supported] at h
  | .ifaceT _, h => by simp [Supported] at h
  | .index _ _, h => by simp [Supported] at h
  | .indexList _ _, h => by simp [Supported] at h
  | .paren _, h => by simp [Supported] at h
  | .lit _, h => by simp [Supported] at h
  | .other _, h => by simp [Supported] at h

/-- **C18** (partial).  Unions, of any size and nesting, of named types (own, imported or predeclared) and
of `~` terms over names that need no selector are reproduced faithfully, in order.
Missing for the full claim, which is false: `~T` for a source type `T` printed for another package,
and every other constraint (see below). -/
theorem C18_constraint_partial (raw : Expr → Str) (decls : List Str) (pref : Str) (e : Expr) (s : Str)
    (hpref : pref = [] ∨ IdentOk pref) (he : Supported decls pref e) (h : parseGenericType decls pref e = .ok s) :
    SaysUnion s (unionMeaning raw decls pref e) := by
  obtain ⟨ps, n, p, c, l, sz⟩ := constraint_pieces raw decls pref hpref e he
  rw [p] at h
  injection h with h
  subst h
  unfold SaysUnion
  simp only [splitBar_join ps [] n c (Or.inl rfl)]
  exact ⟨l, sz⟩

/-- `~int | Bar | fmt.Stringer` -/
example : Supported foreign.types foreign.pref
      (.binary true (.binary true (.unary true int_) (.ident g!"Bar")) (.selector (.ident g!"fmt") g!"Stringer")) ∧
    parseGenericType foreign.types foreign.pref
      (.binary true (.binary true (.unary true int_) (.ident g!"Bar")) (.selector (.ident g!"fmt") g!"Stringer")) =
      .ok g!"~int | foo.Bar | fmt.Stringer" := by
  refine ⟨?_, by rfl⟩
  simp only [Supported, int_, foreign]
  decide

/-- Constraints as they come from the parser and that are supported are constraint-shaped. -/
example : ConstraintShape (.binary true (.unary true int_) (.ident g!"Bar")) := by
  simp only [ConstraintShape, TypeShape, int_]; decide

/-- The full claim fails: `~Bar` is not given the selector. -/
theorem C18_full_false : ¬ C18_full := by
  intro h
  have := h rawDemo foreign.types g!"foo" (.unary true (.ident g!"Bar")) g!"~Bar" rawDemo_ok (Or.inr (by decide))
    (by simp only [ConstraintShape, TypeShape]; decide) (by rfl)
  have h1 := this.2 0 g!"~Bar" ⟨true, .name (some g!"foo") g!"Bar"⟩ (by decide)
    (by simp [unionMeaning, meaning, foreign])
  have h2 : Says g!"Bar" (.name none g!"Bar") := nameText_says (.bare (by decide))
  have := h1.2.unique h2
  simp at this

/-- The full claim fails: an inline constraint, such as `interface{ ~int }` or `[]byte`, is dropped. -/
theorem C18_dropped : ¬ C18_full := by
  intro h
  have := h rawDemo [] [] (.array none (.ident g!"byte")) [] rawDemo_ok (Or.inl rfl)
    (by simp only [ConstraintShape, TypeShape, LenShapeOpt]; decide) (by rfl)
  have h1 := this.2 0 [] ⟨false, .slice (.name none g!"byte")⟩ (by decide) (by simp [unionMeaning, meaning])
  obtain ⟨N, hN⟩ := h1.2
  have := hN (N + 2) (by omega)
  have hw : word ([] : Str) = ([], []) := rfl
  rw [readTy.eq_def] at this
  simp only [hw] at this
  rw [readWord.eq_def] at this
  simp at this

end Gowrap.Props
