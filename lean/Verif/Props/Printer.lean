import Verif.Proofs.TypeTextMain
import Verif.Proofs.PrinterNames
import Verif.Proofs.PrinterState
import Verif.Props.Demo
/-!
# Properties of printer/printer.go (C11 - C16)
-/

namespace Gowrap.Props

open Gowrap Gowrap.Spec Gowrap.Demo

/-! ## A stand-in for go/printer that satisfies the assumptions -/

/-- `(` inner `)`, where unbalanced inner text (which go/printer does not produce) is left out. -/
def wrapped (o c : Str) (inner : Str) : Str := o ++ (if Balanced inner then inner else []) ++ c

/-- Plain printing of the nodes used in the examples. -/
def rawDemo : Expr → Str
  | .ident n => n
  | .selector (.ident a) s => a ++ g!"." ++ s
  | .lit t => t
  | .other t => t
  | .unary _ x => g!"~" ++ rawDemo x
  | .binary _ x y => rawDemo x ++ g!"|" ++ rawDemo y
  | .paren x => wrapped g!"(" g!")" (rawDemo x)
  | .chanT .recv x => g!"<-chan " ++ rawDemo x
  | .star x => g!"*" ++ rawDemo x
  | .ifaceT (.mk _ _ _ t _ :: _) => wrapped g!"interface{" g!"}" (rawDemo t)
  | .ifaceT [] => g!"interface{}"
  | _ => g!"?"

theorem bal_append : ∀ (d : Nat) (a b : Str), bal d (a ++ b) = (bal d a).bind fun d' => bal d' b
  | d, [], b => rfl
  | d, c :: a, b => by
    simp only [List.cons_append, bal]
    split
    · exact bal_append _ a b
    · split
      · cases d with
        | zero => rfl
        | succ d => exact bal_append _ a b
      · exact bal_append _ a b

theorem balanced_append {a b : Str} (ha : Balanced a) (hb : Balanced b) : Balanced (a ++ b) := by
  unfold Balanced at *
  rw [bal_append, ha]; exact hb

theorem bal_mono : ∀ (d d' k : Nat) (a : Str), bal d a = some d' → bal (d + k) a = some (d' + k)
  | d, d', k, [], h => by simp [bal] at h ⊢; omega
  | d, d', k, c :: a, h => by
    simp only [bal] at h ⊢
    split at h
    · rename_i ho
      rw [if_pos ho, show d + k + 1 = d + 1 + k by omega]
      exact bal_mono _ _ _ _ h
    · rename_i ho
      rw [if_neg ho]
      split at h
      · rename_i hc
        rw [if_pos hc]
        cases d with
        | zero => cases h
        | succ d =>
          rw [show d + 1 + k = (d + k) + 1 by omega]
          exact bal_mono _ _ _ _ h
      · rename_i hc
        rw [if_neg hc]
        exact bal_mono _ _ _ _ h

theorem balanced_group {b : Str} (hb : Balanced b) : Balanced (g!"(" ++ b ++ g!")") := by
  unfold Balanced at *
  rw [List.append_assoc, bal_append]
  have : bal 0 g!"(" = some 1 := by decide
  rw [this, Option.bind_some, bal_append, bal_mono 0 0 1 b hb]
  decide

theorem identOk_balanced {n : Str} (h : IdentOk n) : Balanced n := by
  have : ∀ (s : Str), (∀ c ∈ s, identChar c = true) → bal 0 s = some 0 := by
    intro s
    induction s with
    | nil => intro _; rfl
    | cons c s ih =>
      intro hs
      have hc := hs c (by simp)
      have ho : isOpen c = false := by
        cases hh : isOpen c with
        | false => rfl
        | true =>
          simp only [isOpen, decide_eq_true_eq] at hh
          rcases hh with rfl | rfl | rfl <;> revert hc <;> decide
      have hcl : isClose c = false := by
        cases hh : isClose c with
        | false => rfl
        | true =>
          simp only [isClose, decide_eq_true_eq] at hh
          rcases hh with rfl | rfl | rfl <;> revert hc <;> decide
      simp only [bal, ho, hcl]
      exact ih fun c hc => hs c (by simp [hc])
  exact this n h.2.1

theorem wrapped_spec (o c inner : Str) : ∃ b, Balanced b ∧ wrapped o c inner = o ++ b ++ c := by
  unfold wrapped
  split
  · rename_i h; exact ⟨inner, h, rfl⟩
  · exact ⟨[], by decide, rfl⟩

theorem rawDemo_len : ∀ l, LenShape l → Balanced (rawDemo l) ∧ rawDemo l ≠ []
  | .ident n, h => by simp only [LenShape] at h; exact ⟨identOk_balanced h, h.1⟩
  | .selector x b, h => by
    cases x <;> simp only [LenShape] at h
    simp only [rawDemo]
    exact ⟨balanced_append (balanced_append (identOk_balanced h.1) (by decide)) (identOk_balanced h.2),
      by simp⟩
  | .lit t, h => by simpa only [LenShape, rawDemo] using h
  | .other t, h => by simpa only [LenShape, rawDemo] using h
  | .unary o x, h => by
    simp only [LenShape, rawDemo] at *
    exact ⟨balanced_append (by decide) (rawDemo_len x h).1, by simp⟩
  | .binary o x y, h => by
    simp only [LenShape, rawDemo] at *
    exact ⟨balanced_append (balanced_append (rawDemo_len x h.1).1 (by decide)) (rawDemo_len y h.2).1, by simp⟩
  | .paren x, h => by
    simp only [rawDemo]
    obtain ⟨b, hb, e⟩ := wrapped_spec g!"(" g!")" (rawDemo x)
    rw [e]
    exact ⟨balanced_group hb, by simp⟩
  | .star _, h => by simp [LenShape] at h
  | .sliceExpr _, h => by simp [LenShape] at h
  | .ellipsis _, h => by simp [LenShape] at h
  | .array _ _, h => by simp [LenShape] at h
  | .mapT _ _, h => by simp [LenShape] at h
  | .chanT _ _, h => by simp [LenShape] at h
  | .funcT _ _, h => by simp [LenShape] at h
  | .structT _, h => by simp [LenShape] at h
  | .ifaceT _, h => by simp [LenShape] at h
  | .index _ _, h => by simp [LenShape] at h
  | .indexList _ _, h => by simp [LenShape] at h

/-- The assumptions about go/printer are satisfiable. -/
theorem rawDemo_ok : RawOk rawDemo where
  ident _ _ := rfl
  selector _ _ _ _ := rfl
  iface ms := by
    match ms with
    | [] => exact ⟨[], by decide, rfl⟩
    | .mk _ _ _ t _ :: _ => simp only [rawDemo]; exact wrapped_spec _ _ _
  paren x := by simp only [rawDemo]; exact wrapped_spec _ _ _
  expr := rawDemo_len

/-- Printing for a package that refers to the source package as `foo`, which declares `Bar` and `baz`. -/
def foreign : PrintEnv := ⟨Uni.ascii, rawDemo, [g!"Bar", g!"baz"], g!"foo"⟩

theorem foreign_ok : EnvOk foreign := ⟨rawDemo_ok, Or.inr (by decide)⟩

/-! ## C11: references to source types are qualified -/

/-- The full claim.  `tps` are the type parameters in scope; their names are not references to types of
the source package, whatever it declares. -/
def C11_full : Prop :=
  ∀ (env : PrintEnv) (tps : List Str) (e : Expr) (s : Str), RawOk env.raw → IdentOk env.pref → TypeShape e →
    printType env e = .ok s →
    Says s (meaning env.raw (env.types.filter fun n => !tps.contains n) env.pref e)

/-- The full claim fails: a type parameter that has the name of a declared type gets a selector. -/
theorem C11_full_false : ¬ C11_full := by
  intro h
  have h1 := h foreign [g!"Bar"] (.ident g!"Bar") g!"foo.Bar" rawDemo_ok (by decide)
    (by simp only [TypeShape]; decide) (by rfl)
  have h2 := printType_meaning foreign_ok (e := .ident g!"Bar") (s := g!"foo.Bar")
    (by simp only [TypeShape]; decide) (by rfl)
  have h3 := h1.unique h2
  simp [meaning, foreign] at h3

/-- **C11** (partial).  When no type parameter in scope has the name of a type declared in the source
package, the printed text of a type says exactly the source type with every reference to a declared type
qualified: same constructors, same names, same parameters, same lengths, at any depth.
Missing for the full claim: type parameters that shadow a declared type. -/
theorem C11_qualified_partial (env : PrintEnv) (tps : List Str) (e : Expr) (s : Str)
    (hraw : RawOk env.raw) (hpref : IdentOk env.pref) (he : TypeShape e)
    (htps : ∀ n ∈ tps, n ∉ env.types) (h : printType env e = .ok s) :
    Says s (meaning env.raw (env.types.filter fun n => !tps.contains n) env.pref e) := by
  have hf : (env.types.filter fun n => !tps.contains n) = env.types := by
    rw [List.filter_eq_self]
    intro n hn
    have : n ∉ tps := fun hh => htps n hh hn
    simp [this]
  rw [hf]
  exact printType_meaning ⟨hraw, Or.inr hpref⟩ he h

/-- `map[string]func(a, b []*Bar, rest ...chan<- other.T) (struct{ Bar; N G[Bar, T] })` -/
def demoType : Expr :=
  .mapT string_ (.funcT
    [fld [g!"a", g!"b"] (.array none (.star (.ident g!"Bar"))),
     fld [g!"rest"] (.ellipsis (.chanT .send (.selector (.ident g!"other") g!"T")))]
    (some [fld [] (.structT [fld [] (.ident g!"Bar"),
      fld [g!"N"] (.indexList (.ident g!"G") [.ident g!"Bar", .ident g!"T"])])]))

theorem demoType_shape : TypeShape demoType := by
  have i : IdentOk g!"string" ∧ IdentOk g!"a" ∧ IdentOk g!"b" ∧ IdentOk g!"rest" ∧ IdentOk g!"Bar" ∧
    IdentOk g!"other" ∧ IdentOk g!"T" ∧ IdentOk g!"N" ∧ IdentOk g!"G" := by decide
  simp [demoType, TypeShape, TypeShapeFields, TypeShapeField, TypeShapeOpt, TypeShapeList, LenShapeOpt,
    IsTypeName, Uniform, fld, string_, Field.names, i]

example : TypeShape demoType ∧ (∀ n ∈ [g!"T"], n ∉ foreign.types) ∧
    printType foreign demoType = .ok
      g!"map[string]func(a, b []*foo.Bar, rest ...chan<- other.T) ( struct{\n foo.Bar\nN G[foo.Bar, T]\n})" := by
  exact ⟨demoType_shape, by decide, by rfl⟩

example : meaning rawDemo foreign.types foreign.pref demoType =
    .mapT (.name none g!"string") (.func
      [.mk [g!"a", g!"b"] (.slice (.ptr (.name (some g!"foo") g!"Bar"))),
       .mk [g!"rest"] (.variadic (.chanT .send (.name (some g!"other") g!"T")))]
      [.mk [] (.struct [.mk [] (.name (some g!"foo") g!"Bar"),
        .mk [g!"N"] (.inst (.name none g!"G") [.name (some g!"foo") g!"Bar", .name none g!"T"])])]) := by
  simp [demoType, meaning, meaningFields, meaningField, meaningOpt, meaningList, foreign, fld, string_]

/-! ## C12: unexported source types are refused, and only those -/

/-- The full claim: another package can use exactly the exported names. -/
def C12_full : Prop :=
  ∀ (env : PrintEnv) (e : Expr), (∀ n ∈ env.types, n ≠ []) →
    ((∃ er, printType env e = .err er) ↔
      env.pref ≠ [] ∧ ∃ n ∈ typeNames e, n ∈ env.types ∧ ¬ Exported env.uni n) ∧
    (env.pref = [] → ∃ s, printType env e = .ok s)

/-- A table of letters with an upper case letter that has no lower case form, as U+1D400 (mathematical
bold capital A) is in Unicode. -/
def mathUni : Uni :=
  { Uni.ascii with
    isUpper := fun c => if c.val < 128 then c.isUpper else c = '𝐀'
    isUpper_ascii := by intro c h; simp [h] }

/-- The full claim fails: an exported type whose first letter has no lower case form is refused. -/
theorem C12_full_false : ¬ C12_full := by
  intro h
  have := (h ⟨mathUni, rawDemo, [['𝐀']], g!"foo"⟩ (.ident ['𝐀']) (by simp)).1.1
    ⟨.unexportedType ['𝐀'], by rfl⟩
  obtain ⟨_, n, hn, _, hne⟩ := this
  simp [typeNames] at hn
  subst hn
  exact hne ⟨'𝐀', [], rfl, by decide⟩

/-- **C12** (partial).  For declared names whose first letter is upper case exactly if lower-casing
changes it (every ASCII name, see below): printing for another package fails exactly when the type refers,
outside interface literals, parentheses and array lengths, to an unexported declared type; the error names
such a type; and printing for the same package never fails.
Missing for the full claim: upper case letters without lower case form, and title case letters. -/
theorem C12_refused_iff_partial (env : PrintEnv) (e : Expr) (hne : ∀ n ∈ env.types, n ≠ [])
    (hcase : ∀ c r, (c :: r) ∈ env.types → (env.uni.isUpper c = true ↔ env.uni.toLower c ≠ c)) :
    ((∃ er, printType env e = .err er) ↔
      env.pref ≠ [] ∧ ∃ n ∈ typeNames e, n ∈ env.types ∧ ¬ Exported env.uni n) ∧
    (∀ er, printType env e = .err er → ∃ n ∈ typeNames e, n ∈ env.types ∧ ¬ Exported env.uni n ∧
      er = .unexportedType n) ∧
    ((∃ er, printType env e = .err er) ∨ ∃ s, printType env e = .ok s) ∧
    (env.pref = [] → ∃ s, printType env e = .ok s) := by
  -- what happens at a single identifier
  have hid : ∀ n, (∃ t, printIdent env n = .ok t ∧ ¬ (env.pref ≠ [] ∧ n ∈ env.types ∧ ¬ Exported env.uni n)) ∨
      (printIdent env n = .err (.unexportedType n) ∧ env.pref ≠ [] ∧ n ∈ env.types ∧ ¬ Exported env.uni n) := by
    intro n
    unfold printIdent
    by_cases hm : n ∈ env.types
    · rw [if_pos (by simpa using hm)]
      by_cases hp : env.pref = []
      · left; simp [hp]
      · have hlen : env.pref.length > 0 := List.length_pos_iff.2 hp
        rw [if_pos hlen]
        match n, hm with
        | [], hm => exact absurd rfl (hne [] hm)
        | c :: r, hm =>
          have hc := hcase c r hm
          simp only [Uni.looksUnexported]
          by_cases hl : c = env.uni.toLower c
          · right
            have : (c == env.uni.toLower c) = true := by simpa using hl
            simp only [this]
            refine ⟨trivial, hp, hm, ?_⟩
            rintro ⟨c', r', e, hu⟩
            injection e with e1 e2
            subst e1
            exact (hc.1 hu) hl.symm
          · left
            have : (c == env.uni.toLower c) = false := by simpa using hl
            simp only [this]
            refine ⟨_, rfl, ?_⟩
            rintro ⟨_, _, hx⟩
            exact hx ⟨c, r, rfl, hc.2 fun h => hl h.symm⟩
    · left
      rw [if_neg (by simpa using hm)]
      exact ⟨_, rfl, by simp [hm]⟩
  rcases printType_lifts env e with ⟨s, hs, hall⟩ | ⟨n, hn, hbad⟩
  · have hgood : ¬ (env.pref ≠ [] ∧ ∃ n ∈ typeNames e, n ∈ env.types ∧ ¬ Exported env.uni n) := by
      rintro ⟨hp, n, hn, hm, hx⟩
      obtain ⟨t, ht⟩ := hall n hn
      rcases hid n with ⟨_, _, h⟩ | ⟨h, _⟩
      · exact h ⟨hp, hm, hx⟩
      · rw [ht] at h; cases h
    refine ⟨⟨?_, fun h => absurd h hgood⟩, ?_, Or.inr ⟨s, hs⟩, fun _ => ⟨s, hs⟩⟩
    · rintro ⟨er, h⟩; rw [hs] at h; cases h
    · intro er h; rw [hs] at h; cases h
  · rcases hid n with ⟨t, ht, _⟩ | ⟨he, hp, hm, hx⟩
    · rcases hbad with ⟨er, h, _⟩ | ⟨h, _⟩ <;> (rw [ht] at h; cases h)
    · rcases hbad with ⟨er, h, hr⟩ | ⟨h, _⟩
      · rw [he] at h
        have : er = .unexportedType n := by injection h with h; exact h.symm
        subst this
        refine ⟨⟨fun _ => ⟨hp, n, hn, hm, hx⟩, fun _ => ⟨_, hr⟩⟩, ?_, Or.inl ⟨_, hr⟩, fun h => absurd h hp⟩
        intro er' h'
        rw [hr] at h'
        injection h' with h'
        exact ⟨n, hn, hm, hx, h'.symm⟩
      · rw [he] at h; cases h

/-- The case condition holds for names that begin with an ASCII character. -/
theorem C12_ascii (u : Uni) (c : Char) (h : c.val < 128) : u.isUpper c = true ↔ u.toLower c ≠ c := by
  rw [u.isUpper_ascii c h, u.lower_ascii c h]
  unfold Char.toLower Char.isUpper
  constructor
  · intro hh
    simp only [Bool.and_eq_true, decide_eq_true_eq] at hh
    simp only [hh]
    intro e
    have := congrArg Char.val e
    revert this
    simp
  · intro hh
    simp only [Bool.and_eq_true, decide_eq_true_eq]
    grind

example : (∀ n ∈ foreign.types, n ≠ []) ∧
    (∀ c r, (c :: r) ∈ foreign.types → (foreign.uni.isUpper c = true ↔ foreign.uni.toLower c ≠ c)) ∧
    g!"baz" ∈ typeNames (.mapT string_ (.star (.ident g!"baz"))) ∧
    printType foreign (.mapT string_ (.star (.ident g!"baz"))) = .err (.unexportedType g!"baz") := by
  refine ⟨by decide, ?_, by simp [typeNames, string_], by rfl⟩
  intro c r h
  simp [foreign] at h
  rcases h with ⟨rfl, _⟩ | ⟨rfl, _⟩ <;> decide

/-! ## C13: printing in the same package changes nothing -/

mutual
theorem same_types (env : PrintEnv) (types : List Str) (hp : env.pref = [])
    (hraw : ∀ n, IdentOk n → env.raw (.ident n) = n) : ∀ e, TypeShape e →
    printType env e = printType { env with types := types } e
  | .ident n, h => by
    simp only [TypeShape] at h
    simp only [printType, printIdent, hp, List.length_nil, gt_iff_lt, Nat.lt_irrefl, if_false, hraw n h, ite_self]
  | .selector x b, _ => by simp only [printType]
  | .star x, h => by
    simp only [TypeShape] at h; simp only [printType, same_types env types hp hraw x h]
  | .ellipsis x, h => by
    simp only [TypeShape] at h; simp only [printType, same_types env types hp hraw x h]
  | .array l x, h => by
    simp only [TypeShape] at h
    simp only [printType, same_types env types hp hraw x h.2]
    cases l <;> rfl
  | .mapT k v, h => by
    simp only [TypeShape] at h
    simp only [printType, same_types env types hp hraw k h.1, same_types env types hp hraw v h.2]
  | .chanT d x, h => by
    simp only [TypeShape] at h; simp only [printType, same_types env types hp hraw x h.1]
  | .funcT ps rs, h => by
    simp only [TypeShape] at h
    simp only [printType, same_fields env types hp hraw ps h.1, same_opt env types hp hraw rs h.2.2]
  | .structT fs, h => by
    simp only [TypeShape] at h; simp only [printType, same_fields env types hp hraw fs h]
  | .index x i, h => by
    simp only [TypeShape] at h
    simp only [printType, same_name env types hp hraw x h.1, same_types env types hp hraw i h.2]
  | .indexList x is, h => by
    simp only [TypeShape] at h
    rw [printType, printType, same_name env types hp hraw x h.1]
    congr 1
    funext t
    exact same_indices env types hp hraw is h.2.2 _
  | .ifaceT ms, _ => by simp only [printType]
  | .paren x, _ => by simp only [printType]
  | .sliceExpr _, _ => by simp only [printType]
  | .lit _, _ => by simp only [printType]
  | .unary _ _, _ => by simp only [printType]
  | .binary _ _ _, _ => by simp only [printType]
  | .other _, _ => by simp only [printType]
theorem same_name (env : PrintEnv) (types : List Str) (hp : env.pref = [])
    (hraw : ∀ n, IdentOk n → env.raw (.ident n) = n) : ∀ e, IsTypeName e →
    printType env e = printType { env with types := types } e
  | .ident n, h => same_types env types hp hraw (.ident n) (by simpa [TypeShape, IsTypeName] using h)
  | .selector x b, _ => by simp only [printType]
  | .star _, h => by simp [IsTypeName] at h
  | .sliceExpr _, h => by simp [IsTypeName] at h
  | .ellipsis _, h => by simp [IsTypeName] at h
  | .array _ _, h => by simp [IsTypeName] at h
  | .mapT _ _, h => by simp [IsTypeName] at h
  | .chanT _ _, h => by simp [IsTypeName] at h
  | .funcT _ _, h => by simp [IsTypeName] at h
  | .structT _, h => by simp [IsTypeName] at h
  | .ifaceT _, h => by simp [IsTypeName] at h
  | .index _ _, h => by simp [IsTypeName] at h
  | .indexList _ _, h => by simp [IsTypeName] at h
  | .paren _, h => by simp [IsTypeName] at h
  | .lit _, h => by simp [IsTypeName] at h
  | .unary _ _, h => by simp [IsTypeName] at h
  | .binary _ _ _, h => by simp [IsTypeName] at h
  | .other _, h => by simp [IsTypeName] at h
theorem same_indices (env : PrintEnv) (types : List Str) (hp : env.pref = [])
    (hraw : ∀ n, IdentOk n → env.raw (.ident n) = n) : ∀ es, TypeShapeList es → ∀ b,
    printIndices env b es = printIndices { env with types := types } b es
  | [], _, b => by simp only [printIndices]
  | e :: es, h, b => by
    simp only [TypeShapeList] at h
    simp only [printIndices, same_types env types hp hraw e h.1]
    congr 1
    funext t
    split
    · exact same_indices env types hp hraw es h.2 _
    · exact same_indices env types hp hraw es h.2 _
theorem same_field (env : PrintEnv) (types : List Str) (hp : env.pref = [])
    (hraw : ∀ n, IdentOk n → env.raw (.ident n) = n) : ∀ f, TypeShapeField f →
    printField env f = printField { env with types := types } f
  | .mk _ _ names t _, h => by
    simp only [TypeShapeField] at h
    simp only [printField, same_types env types hp hraw t h.2]
theorem same_fields (env : PrintEnv) (types : List Str) (hp : env.pref = [])
    (hraw : ∀ n, IdentOk n → env.raw (.ident n) = n) : ∀ fs, TypeShapeFields fs →
    printFields env fs = printFields { env with types := types } fs
  | [], _ => by simp only [printFields]
  | f :: fs, h => by
    simp only [TypeShapeFields] at h
    simp only [printFields, same_field env types hp hraw f h.1, same_fields env types hp hraw fs h.2]
theorem same_opt (env : PrintEnv) (types : List Str) (hp : env.pref = [])
    (hraw : ∀ n, IdentOk n → env.raw (.ident n) = n) : ∀ fs, TypeShapeOpt fs →
    printResults env fs = printResults { env with types := types } fs
  | none, _ => by simp only [printResults]
  | some fs, h => by
    simp only [TypeShapeOpt] at h
    simp only [printResults, same_fields env types hp hraw fs h.1]
end

/-- **C13.** In the source package itself every type can be printed, the text does not depend on which
types the package declares, and it says exactly the type as it is written in the source. -/
theorem C13_same_package (env : PrintEnv) (e : Expr) (hraw : RawOk env.raw) (he : TypeShape e)
    (hp : env.pref = []) :
    ∃ s, printType env e = .ok s ∧ (∀ types, printType { env with types := types } e = .ok s) ∧
      Says s (meaning env.raw [] [] e) := by
  have h0 : ∃ s, printType { env with types := [] } e = .ok s := by
    rcases printType_lifts { env with types := [] } e with ⟨s, hs, _⟩ | ⟨n, _, hbad⟩
    · exact ⟨s, hs⟩
    · simp [printIdent] at hbad
  obtain ⟨s, hs⟩ := h0
  have hs' : ∀ types, printType { env with types := types } e = .ok s := by
    intro types
    rw [same_types { env with types := types } [] hp (fun n hn => hraw.ident n hn) e he]
    exact hs
  refine ⟨s, hs' env.types, hs', ?_⟩
  have := printType_meaning (env := { env with types := [] }) ⟨hraw, Or.inl hp⟩ he hs
  rw [hp] at this
  exact this

/-- The same type as above printed in its own package. -/
example : TypeShape demoType ∧ ({ foreign with pref := [] } : PrintEnv).pref = [] ∧
    printType { foreign with pref := [] } demoType = .ok
      g!"map[string]func(a, b []*Bar, rest ...chan<- other.T) ( struct{\n Bar\nN G[Bar, T]\n})" := by
  exact ⟨demoType_shape, rfl, by rfl⟩

/-! ## C14: history independence -/

/-- **C14.** Whatever was printed before, with or without errors or panics, each call returns what it
would return on a fresh printer. -/
theorem C14_history_independent (cfg : PrinterCfg) (calls : List PrinterCall) :
    runCalls cfg freshBuf calls = calls.map fun c => (c.run cfg freshBuf).1 := by
  induction calls with
  | nil => rfl
  | cons c cs ih => simp only [runCalls, List.map_cons, c.run_clean cfg, ih]

/-- Leftovers in the buffer would show: a printer whose buffer is not empty prints them. -/
example : (printTypeM foreign.cfg (.ident g!"string") g!"left over ").1 =
    .ret g!"left over string" none := by rfl

/-- The printer with its buffer computes what the model without it computes (the two models of
`PrintType` agree), for every history. -/
theorem C14_refines (env : PrintEnv) (before : List PrinterCall) (e : Expr) :
    (runCalls env.cfg freshBuf (before ++ [.printType e])).getLast? = some (printType env e).toRet := by
  rw [C14_history_independent]
  simp only [List.map_append, List.map_cons, List.map_nil, List.getLast?_append, List.getLast?_singleton,
    Option.some_or, PrinterCall.run]
  exact congrArg some (congrArg Prod.fst (printTypeM_refines env e))

/-- A history with an error (an unexported type) and a writer that fails after a partial output. -/
def brokenCfg : PrinterCfg :=
  ⟨Uni.ascii, fun e => match e with
    | .other t => (t.take 2, some (.external 7))
    | e => (rawDemo e, none), [g!"baz"], g!"foo"⟩

example : runCalls brokenCfg freshBuf
    [.printType (.star (.ident g!"baz")), .printType (.array none (.other g!"broken")), .print (some (.other g!"broken")),
     .printType (.array none string_)] =
    [.ret [] (some (.unexportedType g!"baz")), .ret [] (some (.external 7)), .ret g!"br" (some (.external 7)),
     .ret g!"[]string" none] := by rfl

/-! ## C15: nothing is left unqualified -/

/-- The full claim: in the printed text no declaration of the source package is named without the
selector. `decls` are all its declarations; at a type position the declared names are its types. -/
def C15_full : Prop :=
  ∀ (env : PrintEnv) (decls : List Str) (e : Expr) (s : Str), RawOk env.raw → IdentOk env.pref → TypeShape e →
    (∀ n ∈ typeNames e, n ∈ decls → n ∈ env.types) → printType env e = .ok s →
    ∃ t, Says s t ∧ ∀ n ∈ bareNames t, n ∉ decls

/-- The full claim fails for a channel of receive-only channels `chan (<-chan Bar)`, as the parenthesised
element is printed as it is. -/
theorem C15_full_false : ¬ C15_full := by
  intro h
  have hshape : TypeShape (.chanT .both (.paren (.chanT .recv (.ident g!"Bar")))) := by
    simp only [TypeShape]; exact ⟨trivial, by simp⟩
  have hp : printType foreign (.chanT .both (.paren (.chanT .recv (.ident g!"Bar")))) =
    .ok g!"chan (<-chan Bar)" := by rfl
  obtain ⟨t, ht, hn⟩ := h foreign [g!"Bar"] _ _ rawDemo_ok (by decide) hshape
    (by simp [typeNames]) hp
  have := ht.unique (printType_meaning foreign_ok hshape hp)
  subst this
  exact hn g!"Bar" (by simp only [meaning, bareNames, foreign]; decide) (by simp)

/-- It fails in the same way for an array whose length is a constant of the source package. -/
theorem C15_array_length_false : ¬ C15_full := by
  intro h
  have hshape : TypeShape (.array (some (.ident g!"N")) int_) := by
    simp only [TypeShape, LenShapeOpt, LenShape, int_]; decide
  have hp : printType foreign (.array (some (.ident g!"N")) int_) = .ok g!"[N]int" := by rfl
  obtain ⟨t, ht, hn⟩ := h foreign [g!"N", g!"Bar", g!"baz"] _ _ rawDemo_ok (by decide) hshape
    (by simp [typeNames, int_]) hp
  have := ht.unique (printType_meaning foreign_ok hshape hp)
  subst this
  exact hn g!"N" (by simp only [meaning, bareNames, foreign]; decide) (by simp)

/-- **C15** (partial).  A declaration that is named without the selector in the printed text is named in
an interface literal, a parenthesised type or an array length of the type; everywhere else all references
are qualified.  Missing for the full claim: exactly these parts. -/
theorem C15_unqualified_partial (env : PrintEnv) (decls : List Str) (e : Expr) (s : Str) (hraw : RawOk env.raw)
    (hpref : IdentOk env.pref) (he : TypeShape e) (htypes : ∀ n ∈ typeNames e, n ∈ decls → n ∈ env.types)
    (h : printType env e = .ok s) :
    ∃ t, Says s t ∧ ∀ n ∈ bareNames t, n ∈ decls → ∃ p ∈ rawParts e, n ∈ scanWords ' ' [] (env.raw p) := by
  refine ⟨_, printType_meaning ⟨hraw, Or.inr hpref⟩ he h, ?_⟩
  intro n hn hd
  rcases bare_meaning env.raw env.types env.pref e he n hn with ⟨h1, h2⟩ | h
  · exact absurd ⟨htypes n h1 hd, hpref.1⟩ h2
  · exact h

/-- Without such parts nothing is left unqualified. -/
example : rawParts demoType = [] ∧ (∀ n ∈ typeNames demoType, n ∈ foreign.types → n ∈ foreign.types) := by
  exact ⟨by simp [demoType, rawParts, rawPartsFields, rawPartsField, rawPartsOpt, rawPartsList, fld, string_],
    fun _ _ h => h⟩

/-! ## C16: the printed type is identical to the source type -/

/-- The full claim: types that print to the same text are the same type, tags included. -/
def C16_full : Prop :=
  ∀ (env : PrintEnv) (e e' : Expr) (s : Str), RawOk env.raw → (env.pref = [] ∨ IdentOk env.pref) →
    TypeShape e → TypeShape e' → printType env e = .ok s → printType env e' = .ok s →
    meaning env.raw [] [] e = meaning env.raw [] [] e' ∧ tags e = tags e'

/-- The full claim fails: struct tags are dropped. -/
theorem C16_full_false : ¬ C16_full := by
  intro h
  have hs : ∀ tag, TypeShape (.structT [.mk [] [] [g!"A"] int_ tag]) := by
    intro tag
    simp only [TypeShape, TypeShapeFields, TypeShapeField, int_]; decide
  have := (h foreign (.structT [.mk [] [] [g!"A"] int_ (some g!"`json:\"a\"`")])
    (.structT [.mk [] [] [g!"A"] int_ none]) g!"struct{\nA int\n}" rawDemo_ok (Or.inr (by decide))
    (hs _) (hs _) (by rfl) (by rfl)).2
  simp [tags, tagsFields, tagsField, int_] at this

/-- It also fails when the source package imports a package of its own name: its own `Bar` and the
imported `foo.Bar` print to the same text. -/
theorem C16_selector_clash : ¬ C16_full := by
  intro h
  have := (h foreign (.ident g!"Bar") (.selector (.ident g!"foo") g!"Bar") g!"foo.Bar" rawDemo_ok
    (Or.inr (by decide)) (by simp only [TypeShape]; decide)
    (by simp only [TypeShape, IsTypeName]; decide) (by rfl) (by rfl)).1
  simp [meaning] at this

/-- **C16** (partial).  Two types that print to the same text are the same type, component by component
(names, order, directions, lengths, variadic markers, ...), except for struct tags, provided that the
source package does not use a selector equal to its own name for a type with the name of one it declares.
Missing for the full claim: struct tags and that selector clash. -/
theorem C16_injective_partial (env : PrintEnv) (e e' : Expr) (s : Str) (hraw : RawOk env.raw)
    (hpref : env.pref = [] ∨ IdentOk env.pref) (he : TypeShape e) (he' : TypeShape e')
    (hsel : ∀ p ∈ selectors e ++ selectors e', ¬ (p.1 = env.pref ∧ p.2 ∈ env.types))
    (h : printType env e = .ok s) (h' : printType env e' = .ok s) :
    meaning env.raw [] [] e = meaning env.raw [] [] e' := by
  have h1 := (printType_meaning ⟨hraw, hpref⟩ he h).unique (printType_meaning ⟨hraw, hpref⟩ he' h')
  have h2 := congrArg (unqual env.types env.pref) h1
  have hc : NoClash env.types env.pref (selectors e ++ selectors e') := hsel
  rw [unqual_meaning _ _ _ _ hc.left, unqual_meaning _ _ _ _ hc.right] at h2
  exact h2

/-- The premises hold for two different types, which therefore print differently. -/
example : (∀ p ∈ selectors demoType ++ selectors (.selector (.ident g!"other") g!"Bar"),
      ¬ (p.1 = foreign.pref ∧ p.2 ∈ foreign.types)) ∧
    printType foreign (.selector (.ident g!"other") g!"Bar") = .ok g!"other.Bar" := by
  refine ⟨?_, by rfl⟩
  simp [demoType, selectors, selectorsFields, selectorsField, selectorsOpt, selectorsList, fld, string_, foreign]

/-- Every kind of type can be told apart by its text (a few pairs that are easy to confuse). -/
example : printType foreign (.chanT .send (.chanT .both int_)) ≠ printType foreign (.chanT .both (.chanT .send int_)) := by
  decide

end Gowrap.Props
