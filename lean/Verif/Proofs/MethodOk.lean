import Verif.Proofs.TypeToks
import Verif.Proofs.Sound
import Verif.Props.Signature
/-!
# Methods of a parsed interface can be printed

`newMethod` makes of a method of a parsed interface a method whose names are identifiers and whose types are types.
-/

namespace Gowrap

open Gowrap.Spec Gowrap.Go Gowrap.Props

/-- A type argument is printed as a type. -/
def ArgOk (K : Copied) (p : GParam) : Prop := ∃ l, TypePiece p.string l ∧ IsType K l ∧ NoDots l

/-- What the environment of a method knows. -/
structure EnvFine (w : World) (env : SigEnv) : Prop where
  raw : env.print.raw = w.raw
  pref : PrefOk env.print
  names : ∀ n ∈ env.genericTypes.flatMap (·.names), GoName n
  args : ∀ p ∈ env.genericParams, ArgOk (copiedOf w.raw) p

/-- A parameter that can be printed. -/
structure ParamOk (K : Copied) (p : Param) : Prop where
  name : GoName p.name
  plain : p.name ∉ [g!"nil", g!"true", g!"false"]
  source : TypeSource p.type
  type : TypeOf K p
  dots : p.variadic = true ↔ ∃ l, Go.typeToks p.type = .op g!"..." :: l

/-- A method found by gowrap. -/
structure MethodOk (K : Copied) (e : Str × Method) : Prop where
  key : e.1 = e.2.name
  method : GoMethod e.2
  types : ∀ p ∈ e.2.params ++ e.2.results, TypeOf K p
  distinct : (e.2.params.map (·.name) ++ e.2.results.map (·.name)).Nodup
  err : e.2.returnsError = true → ∃ init last, e.2.results = init ++ [last] ∧ last.name = g!"err"

theorem goName_ident {s : Str} (h : GoName s) : IsIdentifier (fun c => Go.letter c = true) s := by
  obtain ⟨⟨c, r, rfl, h1⟩, h2, _⟩ := h
  refine ⟨h1, fun d hd => ?_⟩
  have := h2 d (by simp [hd])
  rcases Bool.or_eq_true_iff.mp this with h | h
  · exact .inl h
  · exact .inr h

theorem goName_of_ident {s : Str} (h : IsIdentifier (fun c => Go.letter c = true) s) (hk : s ∉ Go.keywords) : GoName s := by
  cases s with
  | nil => exact h.elim
  | cons c r =>
    refine ⟨⟨c, r, rfl, h.1⟩, fun d hd => ?_, hk⟩
    rcases List.mem_cons.mp hd with rfl | hd
    · rw [h.1]; rfl
    · rcases h.2 d hd with h | h
      · rw [h]; rfl
      · exact Bool.or_eq_true_iff.mpr (.inr h)

theorem letter_ascii (c : Char) (h : AsciiLetter c) : Go.letter c = true := by
  unfold Go.letter
  rcases h with h | rfl
  · rw [h]; rfl
  · rfl

/-- A name that ends with a digit is neither a keyword nor the name of a constant. -/
theorem digits_plain {pre : Str} {k : Nat} : pre ++ natDec k ∉ Go.keywords ∧ pre ++ natDec k ∉ [g!"nil", g!"true", g!"false"] := by
  have hl : ∃ d, (pre ++ natDec k).getLast? = some d ∧ d.isDigit = true := by
    cases h : (natDec k).getLast? with
    | none => exact absurd (List.getLast?_eq_none_iff.mp h) (natDec_ne_nil k)
    | some d =>
      refine ⟨d, by rw [List.getLast?_append, h]; rfl, natDec_digits (List.mem_of_getLast? h)⟩
  obtain ⟨d, hd, hi⟩ := hl
  have : ∀ l : List Str, (∀ s ∈ l, ∀ d, s.getLast? = some d → d.isDigit = false) → pre ++ natDec k ∉ l := by
    intro l hl hm
    have := hl _ hm d hd
    rw [hi] at this
    cases this
  constructor
  · apply this; unfold Go.keywords; simp
  · apply this; simp

/-- The name of a parameter. -/
theorem param_name {env : SigEnv} {n : Option Str} {fi : Field} {used used' : List Str} {p : Param}
    (h : NewParamSpec env (n.getD []) fi used p used') (hn : ∀ x, n = some x → GoName x ∧ x ∉ [g!"nil", g!"true", g!"false"])
    (hc : ∀ c cs, coreName fi.type = some (c :: cs) → AsciiLetter c) : GoName p.name ∧ p.name ∉ [g!"nil", g!"true", g!"false"] := by
  by_cases hcase : n.getD [] = [] ∨ n.getD [] ∈ used
  · obtain ⟨pre, hpre, hg⟩ := h.name_gen hcase
    obtain ⟨k, _, hk, _⟩ := genName_spec pre 1 used
    rw [hg] at hk
    rw [Res.ok.inj hk]
    refine ⟨goName_of_ident ?_ digits_plain.1, digits_plain.2⟩
    refine isIdentifier_append (typePrefix_ident letter_ascii _ _ _ hc hpre) ?_
    intro d hd; exact Or.inr (natDec_digits hd)
  · have h1 : n.getD [] ≠ [] := fun e => hcase (Or.inl e)
    have h2 : n.getD [] ∉ used := fun e => hcase (Or.inr e)
    rw [h.name_keep h1 h2]
    cases n with
    | none => simp at h1
    | some n => exact hn n rfl

theorem piece_not_dots {K : Copied} {p : Param} {l : List Go.Tok} (hv : p.variadic = false) (hp : TypePiece p.type l) (ht : IsType K l) (hd : NoDots l) :
    TypeSource p.type ∧ TypeOf K p ∧ (p.variadic = true ↔ ∃ l, Go.typeToks p.type = .op g!"..." :: l) := by
  refine ⟨hp.source, ?_, ?_⟩
  · unfold TypeOf; rw [hv]; simp only [Bool.false_eq_true, if_false]; rw [hp.toks]; exact ht
  · rw [hv, hp.toks]
    constructor
    · intro h; cases h
    · rintro ⟨l', e⟩; exact absurd e (hd l')

theorem goName_noDots {s : Str} (h : GoName (g!"..." ++ s)) : False := by
  obtain ⟨⟨c, r, e, h1⟩, _⟩ := h
  have : c = '.' := (List.cons.inj e).1.symm
  subst this
  exact absurd h1 (by decide)

/-- The type of a parameter. -/
theorem param_type {w : World} {env : SigEnv} (he : EnvFine w env) {v : Prop} {n : Str} {fi : Field} {used used' : List Str} {p : Param}
    (h : NewParamSpec env n fi used p used') (ht : SrcType w.raw v fi.type) :
    TypeSource p.type ∧ TypeOf (copiedOf w.raw) p ∧ (p.variadic = true ↔ ∃ l, Go.typeToks p.type = .op g!"..." :: l) ∧ (p.variadic = true → v) := by
  obtain ⟨s, hs, e⟩ := h.type_eq
  rw [← he.raw] at ht
  obtain ⟨l, hl⟩ := printType_toks env.print he.pref fi.type v s ht hs
  rw [he.raw] at hl
  have hv : p.variadic = isEllipsis fi.type := by
    have : isEllipsis fi.type = true ↔ IsVariadic fi.type := by unfold IsVariadic; cases fi.type <;> simp [isEllipsis]
    rw [Bool.eq_iff_iff, h.variadic_iff, this]
  have hinst := buildGenericParamsString_spec s env.genericTypes env.genericParams
  rw [← e] at hinst
  rcases hl.kind with ⟨h1, h2, h3⟩ | ⟨h1, h2, r, rfl, h3⟩
  · have : ∃ l, TypePiece p.type l ∧ IsType (copiedOf w.raw) l ∧ NoDots l := by
      rcases hinst with ⟨i, arg, _, ha, hr⟩ | ⟨_, hr⟩
      · rw [hr]; exact he.args arg (List.mem_of_getElem? ha)
      · rw [hr]; exact ⟨l, hl.piece, h2, h3⟩
    obtain ⟨l', g1, g2, g3⟩ := this
    obtain ⟨k1, k2, k3⟩ := piece_not_dots (p := p) (hv.trans h1) g1 g2 g3
    exact ⟨k1, k2, k3, fun h => by rw [hv, h1] at h; cases h⟩
  · have hr : p.type = s := by
      rcases hinst with ⟨i, arg, hi, _, _⟩ | ⟨_, hr⟩
      · exfalso
        have hg := he.names s (List.mem_of_getElem? hi)
        have : ∃ t, s = g!"..." ++ t := by
          cases hf : fi.type with
          | ellipsis x =>
            rw [hf] at hs
            simp only [printType, Res.bind_eq_ok] at hs
            obtain ⟨t, _, h2⟩ := hs
            cases h2
            exact ⟨t, rfl⟩
          | _ => rw [hf] at h2; simp [isEllipsis] at h2
        obtain ⟨t, rfl⟩ := this
        exact goName_noDots hg
      · exact hr
    refine ⟨by rw [hr]; exact hl.piece.source, ?_, ?_, fun _ => h1⟩
    · unfold TypeOf
      rw [hv, h2, hr, hl.piece.toks]
      exact ⟨r, rfl, h3⟩
    · rw [hv, h2, hr, hl.piece.toks]
      exact ⟨fun _ => ⟨r, rfl⟩, fun _ => rfl⟩

/-- The declared variables of a parsed list of fields. -/
inductive VarsOk (raw : Expr → Str) : Prop → List (Option Str × Field) → Prop
  | nil {v} : VarsOk raw v []
  | cons {v n fi ds} : (∀ x, n = some x → GoName x) → SrcType raw (v ∧ ds = []) fi.type → VarsOk raw v ds → VarsOk raw v ((n, fi) :: ds)

theorem varsOk_append {raw : Expr → Str} {v : Prop} : ∀ {ds es : List (Option Str × Field)}, VarsOk raw (v ∧ es = []) ds → VarsOk raw v es → VarsOk raw v (ds ++ es)
  | [], _, _, h => h
  | (n, fi) :: ds, es, h, h' => by
    cases h with
    | cons h1 h2 h3 =>
      refine .cons h1 ?_ (varsOk_append h3 h')
      have : ((v ∧ es = []) ∧ ds = []) = (v ∧ ds ++ es = []) := by
        rw [List.append_eq_nil_iff]; exact propext ⟨fun h => ⟨h.1.1, h.2, h.1.2⟩, fun h => ⟨⟨h.1, h.2.2⟩, h.2.1⟩⟩
      show SrcType raw (v ∧ ds ++ es = []) fi.type
      rw [← this]; exact h2

theorem Spec.SrcType.mono {raw : Expr → Str} {v v' : Prop} (h : v → v') : ∀ {e : Expr}, SrcType raw v e → SrcType raw v' e := by
  intro e he
  cases e with
  | ellipsis x => simp only [SrcType] at he ⊢; exact ⟨h he.1, he.2⟩
  | array l x => cases l <;> (simp only [SrcType] at he ⊢; exact he)
  | _ => simp only [SrcType] at he ⊢ <;> exact he

theorem varsOk_names {raw : Expr → Str} {v : Prop} {fi : Field} : ∀ {names : List Str}, (∀ x ∈ names, GoName x) →
    SrcType raw (v ∧ names.length ≤ 1) fi.type → VarsOk raw v (names.map fun n => (some n, fi))
  | [], _, _ => .nil
  | x :: xs, hn, ht => by
    refine .cons (fun y e => by cases e; exact hn x (by simp)) ?_ (varsOk_names (fun y hy => hn y (by simp [hy])) (ht.mono ?_))
    · refine ht.mono fun h => ⟨h.1, ?_⟩
      have := h.2
      simp only [List.length_cons] at this
      have : xs = [] := List.length_eq_zero_iff.mp (by omega)
      rw [this]; rfl
    · intro h
      refine ⟨h.1, ?_⟩
      have := h.2
      simp only [List.length_cons] at this
      omega

theorem varsOk_of {raw : Expr → Str} {v : Prop} : ∀ {fs : List Field}, SrcFields raw v fs → VarsOk raw v (Spec.declared fs)
  | [], _ => .nil
  | f :: fs, h => by
    simp only [SrcFields] at h
    obtain ⟨h1, h2⟩ := h
    have hd : Spec.declared (f :: fs) =
        (if f.names.isEmpty then [(none, f)] else f.names.map fun n => (some n, f)) ++ Spec.declared fs := by
      simp [Spec.declared]
    have hnil : Spec.declared fs = [] → fs = [] := fun h => Classical.byContradiction fun hn => declared_ne_nil_of hn h
    rw [hd]
    cases f with
    | mk doc comment names t tag =>
    simp only [SrcField] at h1
    refine varsOk_append ?_ (varsOk_of h2)
    simp only [Field.names]
    cases names with
    | nil =>
      refine .cons nofun ?_ .nil
      refine h1.2.mono ?_
      rintro ⟨⟨a, b⟩, _⟩
      subst b
      exact ⟨⟨a, rfl⟩, rfl⟩
    | cons x xs =>
      refine varsOk_names h1.1 (h1.2.mono ?_)
      rintro ⟨⟨a, b⟩, c⟩
      subst b
      exact ⟨⟨a, rfl⟩, c⟩

/-- The parameters made of declared variables. -/
theorem run_ok {w : World} {env : SigEnv} (he : EnvFine w env) {v : Prop} {ds used ps used'} (h : ParamRun env ds used ps used') :
    VarsOk w.raw v ds → (∀ d ∈ ds, ∀ n, d.1 = some n → n ∉ [g!"nil", g!"true", g!"false"]) →
    (∀ d ∈ ds, ∀ c cs, coreName d.2.type = some (c :: cs) → AsciiLetter c) →
    (∀ p ∈ ps, ParamOk (copiedOf w.raw) p) ∧ (∀ p ∈ ps.dropLast, p.variadic = false) ∧ (∀ p ∈ ps, p.variadic = true → v) := by
  induction h with
  | nil => intro _ _ _; exact ⟨nofun, nofun, nofun⟩
  | @cons n fi ds used p used1 ps used2 hp hrun ih =>
    intro hv hpl hc
    cases hv with
    | cons hn ht hrest =>
      obtain ⟨i1, i2, i3⟩ := ih hrest (fun d hd => hpl d (by simp [hd])) (fun d hd => hc d (by simp [hd]))
      obtain ⟨a1, a2⟩ := param_name hp (fun x e => ⟨hn x e, hpl (n, fi) (by simp) x e⟩) (hc (n, fi) (by simp))
      obtain ⟨t1, t2, t3, t4⟩ := param_type he hp ht
      refine ⟨?_, ?_, ?_⟩
      · intro q hq
        rcases List.mem_cons.mp hq with rfl | hq
        · exact ⟨a1, a2, t1, t2, t3⟩
        · exact i1 q hq
      · intro q hq
        cases ps with
        | nil => simp at hq
        | cons p' ps =>
          rw [List.dropLast_cons_of_ne_nil (by simp)] at hq
          rcases List.mem_cons.mp hq with rfl | hq
          · have hlen := hrun.length
            cases hv : q.variadic with
            | false => rfl
            | true => have := (t4 hv).2; rw [this] at hlen; simp at hlen
          · exact i2 q hq
      · intro q hq hv
        rcases List.mem_cons.mp hq with rfl | hq
        · exact (t4 hv).1
        · exact i3 q hq hv

theorem ParamOk.rename {K : Copied} {p : Param} (h : ParamOk K p) {n : Str} (hn : GoName n) (hp : n ∉ [g!"nil", g!"true", g!"false"]) :
    ParamOk K { p with name := n } := ⟨hn, hp, h.source, h.type, h.dots⟩

/-- **Methods**: the names and types of a method of a parsed interface. -/
theorem newMethod_fine {w : World} {env : SigEnv} (he : EnvFine w env) {name : Str} {fi : Field} {m : Method} {ps : List Field}
    {rs : Option (List Field)} (ht : fi.type = .funcT ps rs) (hs : SrcMethod w.raw name ps rs) (h : newMethod env name fi = .ok m) :
    MethodOk (copiedOf w.raw) (name, m) := by
  obtain ⟨ps', rs', used1, used2, qs, qr, u, u', H⟩ := newMethod_ok h
  have hpr : ps' = ps ∧ rs' = rs := by have := H.type_eq; rw [ht] at this; cases this; exact ⟨rfl, rfl⟩
  obtain ⟨rfl, rfl⟩ := hpr
  have hty := hs.type
  simp only [SrcType] at hty
  obtain ⟨_, hp, hr⟩ := hty
  have hvr : VarsOk w.raw False (Spec.declaredOpt rs') := by
    cases rs' with
    | none => exact .nil
    | some l => simp only [SrcResults] at hr; exact varsOk_of hr.2
  obtain ⟨p1, p2, p3⟩ := run_ok he H.runP (varsOk_of hp) (fun d hd => hs.plain d (List.mem_append_left _ hd)) (fun d hd => hs.ascii d (List.mem_append_left _ hd))
  obtain ⟨r1, r2, r3⟩ := run_ok he H.runR hvr (fun d hd => hs.plain d (List.mem_append_right _ hd)) (fun d hd => hs.ascii d (List.mem_append_right _ hd))
  have hctx : GoName g!"ctx" ∧ g!"ctx" ∉ [g!"nil", g!"true", g!"false"] := by
    refine ⟨goName_of_ident ⟨rfl, ?_⟩ (by decide), by decide⟩
    intro d hd
    left
    simp at hd
    rcases hd with rfl | rfl <;> rfl
  have herr : GoName g!"err" ∧ g!"err" ∉ [g!"nil", g!"true", g!"false"] := by
    refine ⟨goName_of_ident ⟨rfl, ?_⟩ (by decide), by decide⟩
    intro d hd
    left
    simp at hd
    subst hd; rfl
  have P : (∀ p ∈ m.params, ParamOk (copiedOf w.raw) p) ∧ (∀ p ∈ m.params.dropLast, p.variadic = false) ∧
      (m.acceptsContext = true → ∃ p ps, m.params = p :: ps ∧ p.name = g!"ctx") := by
    cases hac : m.acceptsContext with
    | false => rw [H.psEq' hac]; exact ⟨p1, p2, nofun⟩
    | true =>
      obtain ⟨p0, rest, e1, e2⟩ := renameFirst_ok (H.psEq hac)
      rw [e2]
      subst e1
      refine ⟨?_, ?_, fun _ => ⟨_, _, rfl, rfl⟩⟩
      · intro q hq
        rcases List.mem_cons.mp hq with rfl | hq
        · exact (p1 p0 (by simp)).rename hctx.1 hctx.2
        · exact p1 q (by simp [hq])
      · intro q hq
        cases rest with
        | nil => simp at hq
        | cons r rest =>
          rw [List.dropLast_cons_of_ne_nil (by simp)] at hq p2
          rcases List.mem_cons.mp hq with rfl | hq
          · exact p2 p0 (by simp)
          · exact p2 q (List.mem_cons_of_mem _ hq)
  have R : (∀ p ∈ m.results, ParamOk (copiedOf w.raw) p ∧ p.variadic = false) ∧ (m.returnsError = true → m.results ≠ []) := by
    have hv : ∀ p ∈ qr, p.variadic = false := by
      intro p hp
      cases hv : p.variadic with
      | false => rfl
      | true => exact (r3 p hp hv).elim
    cases hre : m.returnsError with
    | false => rw [H.rsEq' hre]; exact ⟨fun p hp => ⟨r1 p hp, hv p hp⟩, nofun⟩
    | true =>
      obtain ⟨init, last, e1, e2⟩ := renameLast_ok (H.rsEq hre)
      rw [e2]
      subst e1
      refine ⟨?_, fun _ => by simp⟩
      intro q hq
      rcases List.mem_append.mp hq with hq | hq
      · exact ⟨r1 q (by simp [hq]), hv q (by simp [hq])⟩
      · rw [List.mem_singleton] at hq
        subst hq
        exact ⟨(r1 last (by simp)).rename herr.1 herr.2, hv last (by simp)⟩
  have A : ∀ p ∈ m.params ++ m.results, ParamOk (copiedOf w.raw) p := by
    intro p hp
    rcases List.mem_append.mp hp with hp | hp
    · exact P.1 p hp
    · exact (R.1 p hp).1
  refine ⟨H.name_eq.symm, ⟨?_, fun p hp => (A p hp).name, fun p hp => (A p hp).source, P.2.2, R.2, ?_, fun p hp => (A p hp).dots,
    fun p hp => (A p hp).plain⟩, fun p hp => (A p hp).type, ?_, ?_⟩
  · show GoName m.name
    rw [H.name_eq]; exact hs.name
  · intro p hp
    rcases List.mem_append.mp hp with hp | hp
    · exact P.2.1 p hp
    · exact (R.1 p hp).2
  · have := C01_names_distinct env name fi m h
    rwa [List.map_append] at this
  · intro hre
    obtain ⟨_, _, _, _, hl, _⟩ := C04_error_result env name fi m h
    obtain ⟨init, last, e1, e2, _⟩ := hl hre
    exact ⟨init, last, e1, e2⟩

end Gowrap
