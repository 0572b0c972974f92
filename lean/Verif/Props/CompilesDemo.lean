import Verif.Props.Compiles
import Verif.Props.EndToEndDemo
/-!
# An example for C76

The interface `Svc` of Props/EndToEndDemo, and an interface all of whose methods accept a context:

    // app/app.go
    import "context"
    type Cache interface {
      Get(ctx context.Context, key string) (string, error)
      Purge(ctx context.Context, keys ...string)
    }
-/

namespace Gowrap.Demo

open Gowrap Spec Tmpl Go

/-- A test for `Unambiguous` if no variables are given, and for `Suits`. -/
def clear (u : Uni) (d : Inputs) (b : Builtin) (l : Locals) : Bool :=
  d.methods.all (fun e =>
    (e.2.params ++ e.2.results).all (fun p => decide (p.name ∉ [g!"_", g!"_d", g!"_i", u.lower d.name ++ g!"DurationSummaryVec"] ++ l.names ++ l.inner) &&
      decide (.word p.name ∉ typeToks d.type)) &&
    decide (e.1 ∉ b.fieldNames d) &&
    (!e.2.acceptsContext || match e.2.params with
      | p :: _ => decide (typeToks p.type = [.word g!"context", .op g!".", .word g!"Context"])
      | [] => false) &&
    (!e.2.returnsError || e.2.results.all fun p => decide (p.name = g!"err" → typeToks p.type = [.word g!"error"])) &&
    e.2.results.all (fun p => (g!"_d" :: (e.2.params ++ e.2.results).map (·.name)).all fun x => decide (.word x ∉ typeToks p.type))) &&
  decide (d.name ∉ b.fields) && decide (typeToks d.type ≠ [.word g!"error"]) &&
  decide (typeToks d.type ≠ [.word g!"context", .op g!".", .word g!"Context"]) && decide (.word g!"impls" ∉ typeToks d.type) &&
  (g!"_d" :: g!"_i" :: l.names).all (fun x => decide (.word x ∉ typeToks d.type))

theorem unambiguous_of {u : Uni} {d : Inputs} {b : Builtin} {l : Locals} (h : clear u d b l = true) (hb : b ∈ builtins)
    (hv : d.vars = fun _ => none) : Unambiguous u d b l := by
  simp only [clear, Bool.and_eq_true, List.all_eq_true, decide_eq_true_eq, List.mem_append, not_or, Bool.or_eq_true, Bool.not_eq_true'] at h
  obtain ⟨⟨⟨⟨⟨hm, h1⟩, h2⟩, h3⟩, h4⟩, h5⟩ := h
  have hp : ∀ e ∈ d.methods, ∀ p ∈ e.2.params ++ e.2.results,
      p.name ∉ [g!"_", g!"_d", g!"_i", u.lower d.name ++ g!"DurationSummaryVec"] ∧ p.name ∉ l.names ∧ p.name ∉ l.inner ∧
        .word p.name ∉ typeToks d.type := by
    intro e he p hp
    have := (hm e he).1.1.1.1 p (List.mem_append.mp hp)
    exact ⟨this.1.1.1, this.1.1.2, this.1.2, this.2⟩
  have hx : ∀ e ∈ d.methods, ∀ p ∈ e.2.params ++ e.2.results, p.name ≠ g!"_" ∧ p.name ≠ g!"_d" ∧ p.name ≠ g!"_i" := by
    intro e he p hq
    have := (hp e he p hq).1
    simp only [List.mem_cons, not_or] at this
    exact ⟨this.1, this.2.1, this.2.2.1⟩
  exact {
    blank := fun e he p hq => (hx e he p hq).1
    fresh := fun e he _ => ⟨fun p hq => by
      rw [List.mem_cons, not_or]
      exact ⟨(hx e he p hq).2.1, (hp e he p hq).2.1⟩, fun p hq => (hp e he p (List.mem_append_right _ hq)).2.2.1⟩
    inner := fun e he _ p hq => (hp e he p (List.mem_append_left _ hq)).2.2.1
    counter := fun _ e he p hq => (hx e he p hq).2.2
    name := Props.freshName_default u d (by simp [cliVar, hv]) b hb fun e he p hq => by
      have := (hp e he p hq).1
      simp only [List.mem_cons, not_or] at this
      exact this.2.2.2.1
    hides := fun e he => (hm e he).1.1.1.2
    field := fun _ => h1
    methods := by
      intro e he _
      constructor
      · intro hc
        have := (hm e he).1.1.2
        rw [hc] at this
        cases hps : e.2.params with
        | nil => rw [hps] at this; simp at this
        | cons p ps => rw [hps] at this; exact ⟨p, ps, rfl, by simpa using this⟩
      · intro hc p hq hpn
        have := (hm e he).1.2
        rw [hc] at this
        exact (this.resolve_left nofun) p hq hpn
    type := ⟨h2, h3⟩
    pool := fun _ => h4
    iface := by
      intro _ e he x hx'
      simp only [List.mem_append, List.mem_map] at hx'
      rcases hx' with hx' | ⟨p, hq, rfl⟩
      · exact h5 x hx'
      · exact (hp e he p (List.mem_append.mpr hq)).2.2.2
    results := fun _ e he p hq x hx' => (hm e he).2 p hq x hx' }

/-! ## The interface `Svc` -/

def shopClear : Bool :=
  match newGenerator shop inOrder 20 shopOptions with
  | .ok g => (builtins.zip locals).all fun bl => clear shop.uni (g.inputs shopOptions fun _ => none) bl.1 bl.2
  | _ => false

theorem shop_clear : shopClear = true := by decide +kernel

/-- The file compiles for every template but templates/elasticapm and templates/fallback, which do not suit the method `Read`. -/
example : ∃ g, newGenerator shop inOrder 20 shopOptions = .ok g ∧ ∀ bl ∈ builtins.zip locals,
    bl.1.text ≠ Text.elasticapm → bl.1.text ≠ Text.fallback →
    ∃ t ds, render shop.uni bl.1.text (g.inputs shopOptions fun _ => none) = some t ∧ ConsistsOfGo shop t ds ∧
      Compiles (g.inputs shopOptions fun _ => none) bl.1 bl.2 ds := by
  have h := shop_clear
  unfold shopClear at h
  split at h
  · next g hg =>
    refine ⟨g, hg, fun bl hb h1 h2 => ?_⟩
    exact Props.C76_compiles_partial inOrder_fair shop_source shop_options hg (no_vars rfl) bl hb
      (unambiguous_of (List.all_eq_true.mp h bl hb) (List.of_mem_zip hb).1 rfl) ⟨fun h => absurd h h1, fun h => absurd h h2⟩
  · cases h

/-- Somewhere a field of the type begins. -/
def embedsType (ty : List Go.Tok) : List Go.Tok → Bool
  | [] => false
  | q :: r => (decide (q ∈ [Go.Tok.op g!"{", .op g!";"]) && (ty ++ [Go.Tok.op g!";"]).isPrefixOf r) || embedsType ty r

theorem embedsType_of {ty : List Go.Tok} {q : Go.Tok} (hq : FieldStart q) (a b : List Go.Tok) :
    embedsType ty (a ++ (q :: ty ++ [.op g!";"]) ++ b) = true := by
  induction a with
  | nil =>
    have hm : q ∈ [Go.Tok.op g!"{", .op g!";"] := by rcases hq with rfl | rfl <;> simp
    have hp : (ty ++ [Go.Tok.op g!";"]).isPrefixOf (ty ++ [Go.Tok.op g!";"] ++ b) = true := List.isPrefixOf_iff_prefix.mpr ⟨b, rfl⟩
    simp only [List.nil_append, List.cons_append, embedsType, decide_eq_true hm, hp, Bool.and_self, Bool.true_or]
  | cons x a ih =>
    simp only [List.cons_append] at ih ⊢
    rw [embedsType, ih, Bool.or_true]

def shopLacks : Bool :=
  match newGenerator shop inOrder 20 shopOptions with
  | .ok g => ((render shop.uni Text.elasticapm (g.inputs shopOptions fun _ => none)).bind Go.tokens).any (fun l =>
      !l.contains (.word g!"Watch") && !embedsType (typeToks g.interfaceType) l) && g.methods.any (fun e => decide (e.1 = g!"Watch"))
  | _ => false

set_option maxRecDepth 100000 in
theorem shop_lacks : shopLacks = true := by krfl

end Gowrap.Demo

/-- templates/elasticapm neither declares the method `Watch` of the example, which has no context, nor embeds the interface. -/
theorem Gowrap.Props.C76_full_false : ¬ Gowrap.Props.C76_full := by
  open Gowrap Gowrap.Props Gowrap.Demo Spec Tmpl Go in
  intro h
  have hl := shop_lacks
  unfold shopLacks at hl
  split at hl
  · next g hg =>
    obtain ⟨t, ds, h1, h2, h3⟩ := h shop inOrder inOrder_fair shop_source 20 shopOptions shop_options g hg (fun _ => none) (no_vars rfl)
      (⟨Text.elasticapm, g!"APMTracing", .context, false, [g!"base", g!"startSpan", g!"endSpan", g!"setLabel", g!"captureError", g!"spanType"]⟩, locals[6])
      (by simp [builtins, locals])
    have h1 : render shop.uni Text.elasticapm (g.inputs shopOptions fun _ => none) = some t := h1
    rw [h1, Option.bind_some, h2.1, Option.any_some] at hl
    simp only [Bool.and_eq_true, Bool.not_eq_true', List.any_eq_true, decide_eq_true_eq] at hl
    obtain ⟨⟨hw, he⟩, e, hm, hn⟩ := hl
    obtain ⟨_, h3 | ⟨x, hx, hxn, _⟩⟩ := h3.implements e hm
    · obtain ⟨q, hq, a, b, hi⟩ := fieldsOf_embedded h3
      have hi : a ++ (q :: typeToks g.interfaceType ++ [.op g!";"]) ++ b = putDecls ds [] := hi
      rw [← hi, embedsType_of hq] at he
      exact nomatch he
    · have := methodsOf_word hx
      rw [hxn, hn] at this
      exact absurd (List.contains_iff_mem.mpr this) (by simpa using hw)
  · cases hl

/-- The same method `Watch` is in the method set of the interface of the source. -/
theorem Gowrap.Props.C70_full_false : ¬ Gowrap.Props.C70_full := by
  open Gowrap Gowrap.Props Gowrap.Demo Spec Tmpl Go in
  intro h
  have hl := shop_lacks
  unfold shopLacks at hl
  split at hl
  · next g hg =>
    obtain ⟨t, ds, h1, h2, f, ts, sel, k1, k2, k3, _, k4⟩ := h shop inOrder inOrder_fair shop_source shop_plain shop_loads shop_agree shop_unique
      shop_printable 20 shopOptions shop_options g hg (fun _ => none) (no_vars rfl)
      ⟨Text.elasticapm, g!"APMTracing", .context, false, [g!"base", g!"startSpan", g!"endSpan", g!"setLabel", g!"captureError", g!"spanType"]⟩
      (by simp [builtins])
    have h1 : render shop.uni Text.elasticapm (g.inputs shopOptions fun _ => none) = some t := h1
    rw [h1, Option.bind_some, h2.1, Option.any_some] at hl
    simp only [Bool.and_eq_true, Bool.not_eq_true', List.any_eq_true, decide_eq_true_eq] at hl
    obtain ⟨⟨hw, he⟩, e, hm, hn⟩ := hl
    obtain ⟨f', ts', i1, i2, i3, i4, _⟩ := C20_supported_partial inOrder_fair shop_plain shop_loads shop_agree shop_unique shop_printable
      (fun _ _ hf hd _ => ⟨shop_supported hf hd, fun _ _ _ hr => shop_supported (Props.reaches_declared hr).1 (Props.reaches_declared hr).2⟩) hg
    obtain ⟨rfl, rfl⟩ := shop_unique _ _ _ _ _ k1 i1 k2 i2 (k3.trans i3.symm)
    obtain ⟨d, hd, hdn⟩ := (i4 e.1).1 (List.mem_map.2 ⟨e, hm, rfl⟩)
    obtain ⟨_, h3 | ⟨x, hx, hxn, _⟩⟩ := k4 d hd
    · obtain ⟨q, hq, a, b, hi⟩ := fieldsOf_embedded h3
      have hi : a ++ (q :: typeToks g.interfaceType ++ [.op g!";"]) ++ b = putDecls ds [] := hi
      rw [← hi, embedsType_of hq] at he
      exact nomatch he
    · have := methodsOf_word hx
      rw [hxn, hdn, hn] at this
      exact absurd (List.contains_iff_mem.mpr this) (by simpa using hw)
  · cases hl

namespace Gowrap.Demo

open Gowrap Spec Tmpl Go

/-! ## The interface `Cache` -/

def cacheGet : Field := fld [g!"Get"] (.funcT [fld [g!"ctx"] context_, fld [g!"key"] string_] (some [fld [] string_, fld [] error_]))
def cachePurge : Field := fld [g!"Purge"] (.funcT [fld [g!"ctx"] context_, fld [g!"keys"] (.ellipsis string_)] none)
def cacheSpec : TypeSpec := iface g!"Cache" [cacheGet, cachePurge]
def cacheFile : File := file [⟨none, g!"\"context\""⟩] [cacheSpec]
def cacheWorld : World := world [⟨g!"app", g!"ex/app", [(g!"context", 1)], [cacheFile]⟩, ⟨g!"context", g!"context", [], []⟩]
def cacheOptions : Options := { interfaceName := g!"Cache", sourcePackage := g!"ex/app", outputFile := g!"/x.go" }

theorem cache_files {p : PkgId} {f : File} : FileOf cacheWorld p f ↔ p = 0 ∧ f = cacheFile := by
  unfold cacheWorld
  rw [fileOf_world]
  match p with
  | 0 => simp
  | 1 => simp
  | n + 2 => simp

theorem get_source {n : Str} {ps : List Field} {rs : Option (List Field)} (hf : [n] = cacheGet.names) (h : .funcT ps rs = cacheGet.type) :
    SrcMethod raw n ps rs := by
  cases hf; cases h
  exact ⟨goName_of (by decide +kernel), by src_check, by src_check, ascii_of (by decide +kernel)⟩

theorem purge_source {n : Str} {ps : List Field} {rs : Option (List Field)} (hf : [n] = cachePurge.names) (h : .funcT ps rs = cachePurge.type) :
    SrcMethod raw n ps rs := by
  cases hf; cases h
  exact ⟨goName_of (by decide +kernel), by src_check, by src_check, ascii_of (by decide +kernel)⟩

theorem cache_source : SourceOk cacheWorld where
  lower := Props.ascii_lower
  names := by
    intro p f hf
    obtain ⟨rfl, rfl⟩ := cache_files.1 hf
    exact goName_of (by decide +kernel)
  titles := by
    intro p f hf
    obtain ⟨rfl, rfl⟩ := cache_files.1 hf
    exact goName_of (by decide +kernel)
  specs := by
    intro p f ts hf hd
    obtain ⟨rfl, rfl⟩ := cache_files.1 hf
    have := declaredIn_file.1 hd
    simp only [List.mem_cons, List.not_mem_nil, or_false] at this
    subst this
    refine ⟨nofun, ?_, ?_⟩
    · intro ms hms f hf n ps rs hn ht
      cases hms
      simp only [List.mem_cons, List.not_mem_nil, or_false] at hf
      rcases hf with rfl | rfl
      · exact get_source (by cases hn; rfl) ht.symm
      · exact purge_source (by cases hn; rfl) ht.symm
    · intro ms hms f hf
      cases hms
      simp only [List.mem_cons, List.not_mem_nil, or_false] at hf
      rcases hf with rfl | rfl <;> trivial

def cacheClear : Bool :=
  match newGenerator cacheWorld inOrder 20 cacheOptions with
  | .ok g => g.methods.all (fun e => e.2.acceptsContext) &&
    (builtins.zip locals).all fun bl => clear cacheWorld.uni (g.inputs cacheOptions fun _ => none) bl.1 bl.2
  | _ => false

theorem cache_clear : cacheClear = true := by decide +kernel

/-- The file compiles for every template. -/
example : ∃ g, newGenerator cacheWorld inOrder 20 cacheOptions = .ok g ∧ ∀ bl ∈ builtins.zip locals,
    ∃ t ds, render cacheWorld.uni bl.1.text (g.inputs cacheOptions fun _ => none) = some t ∧ ConsistsOfGo cacheWorld t ds ∧
      Compiles (g.inputs cacheOptions fun _ => none) bl.1 bl.2 ds := by
  have h := cache_clear
  unfold cacheClear at h
  split at h
  · next g hg =>
    rw [Bool.and_eq_true] at h
    have hc : ∀ e ∈ g.methods, e.2.acceptsContext = true := List.all_eq_true.mp h.1
    refine ⟨g, hg, fun bl hb => ?_⟩
    exact Props.C76_compiles_partial inOrder_fair cache_source ⟨goName_of (by decide +kernel), .inl rfl⟩ hg (no_vars rfl) bl hb
      (unambiguous_of (List.all_eq_true.mp h.2 bl hb) (List.of_mem_zip hb).1 rfl) ⟨fun _ => hc, fun _ e he _ => hc e he⟩
  · cases h

end Gowrap.Demo
