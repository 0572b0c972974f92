import Verif.Props.MethodSet
import Verif.Props.Signature
/-!
# C19: type arguments of embedded generic interfaces
-/

namespace Gowrap.Props

open Gowrap Gowrap.Spec

/-- The full claim for the simplest case: an interface whose only element is `G[A]`, where `G[T]` is an
interface of the same file with one method.  The types of the parameters are printed with `A` in place of
`T` throughout. -/
def C19_full : Prop :=
  ∀ (w : World) (s : Sched) (fuel : Nat) (o : Options) (g : Generator), s.Fair → PlainImports w →
    LoadsImports w → QualifiersAgree w → UniqueTypes w → Printable w → newGenerator w s fuel o = .ok g →
    ∀ f ts fd G t A mfd name ps rs, FileOf w g.srcPackage f → DeclaredIn f ts → ts.name = o.interfaceName →
      ts.type = .ifaceT [fd] → fd.type = .index (.ident G.name) A → DeclaredIn f G → typeParamNames G = [t] →
      G.type = .ifaceT [mfd] → mfd.names = [name] → mfd.type = .funcT ps rs →
      ∀ m, (name, m) ∈ g.methods → ∀ (i : Nat) d p, (declared ps)[i]? = some d → m.params[i]? = some p →
        ∃ env sel, Selector w o g.srcPackage g.dstPath sel ∧ Views w g.srcPackage sel g.srcPackage env ∧
          printType env (replace t A d.2.type) = .ok p.type

theorem wholeReplaced_of {env : SigEnv} {c : Inst} {s t : Str}
    (h1 : env.genericTypes.flatMap (·.names) = c.params) (h2 : env.genericParams.map (·.string) = c.args)
    (h : Instantiated env.genericTypes env.genericParams s t) : WholeReplaced c s t := by
  unfold Instantiated at h
  rw [h1] at h
  rcases h with ⟨j, arg, h3, h4, h5⟩ | ⟨h3, h4⟩
  · refine Or.inl ⟨j, h3, ?_⟩
    rw [← h2, List.getElem?_map, h4, h5]
    rfl
  · refine Or.inr ⟨fun j hj => h3 j ?_, h4⟩
    rw [← h2] at hj
    simpa using hj

/-- **C19** (partial).  Every generated method comes from a declaration reached by following elements, and
each of its parameters and results has the type written there, printed as seen from the package of the
declaration; if that type as a whole is the i-th type parameter of the interface it is declared in, it is
replaced by the i-th argument of the instantiation that named this interface, printed as seen from the
package of the instantiation.  Missing for the full claim: type parameters inside a type, and arguments
which mention type parameters of the surrounding interface. -/
theorem C19_arguments_partial {w : World} {s : Sched} {fuel : Nat} {o : Options} {g : Generator} (hs : s.Fair)
    (hp : PlainImports w) (hl : LoadsImports w) (ha : QualifiersAgree w) (hu : UniqueTypes w)
    (hpr : Printable w) (h : newGenerator w s fuel o = .ok g) :
    ∃ f ts sel, FileOf w g.srcPackage f ∧ DeclaredIn f ts ∧ ts.name = o.interfaceName ∧
      Selector w o g.srcPackage g.dstPath sel ∧ ∀ name m, (name, m) ∈ g.methods →
      ∃ d c q env params results,
        Provides w g.srcPackage sel (.rhs ⟨typeParamNames ts, []⟩) g.srcPackage f ts.type d c ∧
        d.name = name ∧ d.pkg = some q ∧ Views w g.srcPackage sel q env ∧
        d.field.type = .funcT params results ∧
        m.params.length = (declared params).length ∧
        (∀ (i : Nat) v p, (declared params)[i]? = some v → m.params[i]? = some p →
          ∃ t, printType env v.2.type = .ok t ∧ WholeReplaced c t p.type) ∧
        m.results.length = (declaredOpt results).length ∧
        (∀ (i : Nat) v p, (declaredOpt results)[i]? = some v → m.results[i]? = some p →
          ∃ t, printType env v.2.type = .ok t ∧ WholeReplaced c t p.type) := by
  obtain ⟨f, ts, hf, hd, hn, _, _, sel, hsel, hall⟩ := C20_followed_partial hs hp hl ha hu hpr h
  refine ⟨f, ts, sel, hf, hd, hn, hsel, fun name m hm => ?_⟩
  obtain ⟨d, c, h1, h2, q, env, h3, h4, h5, h6, h7⟩ := hall name m hm
  obtain ⟨params, results, k1, _, _, _, k2, k3, k4, k5⟩ := C02_signature_preserved env d.name d.field m h4
  refine ⟨d, c, q, env.print, params, results, h1, h2, h3, h5, k1, k2, ?_, k4, ?_⟩
  · intro i v p hv hp
    obtain ⟨t, ht, hi⟩ := (k3 i v p hv hp).type
    exact ⟨t, ht, wholeReplaced_of h6 h7 hi⟩
  · intro i v p hv hp
    obtain ⟨t, ht, hi⟩ := (k5 i v p hv hp).type
    exact ⟨t, ht, wholeReplaced_of h6 h7 hi⟩

/-- A variable whose type is the i-th type parameter has the text of the i-th argument as its type, if the
package declares no type of that name. -/
theorem C19_whole_partial {w : World} {root : PkgId} {sel : Str} {q : PkgId} {env : PrintEnv} {c : Inst} {t : Str}
    (hv : Views w root sel q env) (hraw : w.raw (.ident t) = t)
    (hno : ∀ f ts, FileOf w q f → DeclaredIn f ts → ts.name ≠ t) (hnd : c.params.Nodup)
    {i : Nat} {arg s result : Str} (hi : c.params[i]? = some t) (harg : c.args[i]? = some arg)
    (hs : printType env (.ident t) = .ok s) (h : WholeReplaced c s result) : result = arg := by
  have hst : s = t := by
    have : env.types.contains t = false := by
      rw [Bool.eq_false_iff]
      intro hc
      obtain ⟨f, ts, h1, h2, h3⟩ := (hv.types t).1 (by simpa using hc)
      exact hno f ts h1 h2 h3
    simp only [printType, printIdent, this, Bool.false_eq_true, if_false, hv.raw, hraw] at hs
    exact (Res.ok.inj hs).symm
  subst hst
  rcases h with ⟨j, h1, h2⟩ | ⟨h1, _⟩
  · have hj : j < c.params.length := (List.getElem?_eq_some_iff.1 h1).1
    have : i = j := (List.getElem?_inj (List.getElem?_eq_some_iff.1 hi).1 hnd).1 (hi.trans h1.symm)
    subst this
    rw [harg] at h2
    exact (Option.some.inj h2).symm
  · exact absurd hi (h1 i (List.getElem?_eq_some_iff.1 harg).1)

/-! Example:

    type Item struct{}
    type Cache[K, V any] interface { Get(k K) V }
    type Svc interface { Cache[string, Item] }
-/

def cache : TypeSpec :=
  ⟨g!"Cache", some [Demo.fld [g!"K", g!"V"] (.ident g!"any")], .ifaceT
    [Demo.fld [g!"Get"] (.funcT [Demo.fld [g!"k"] (.ident g!"K")] (some [Demo.fld [] (.ident g!"V")]))]⟩
def cached : World := Demo.solo [⟨g!"Item", none, .structT []⟩, cache,
  Demo.iface g!"Svc" [Demo.fld [] (.indexList (.ident g!"Cache") [Demo.string_, .ident g!"Item"])]]

/-- Types of the parameters and results of the methods found. -/
def signatures : Res Generator → Option (List (Str × List Str × List Str))
  | .ok g => some (g.methods.map fun x => (x.1, x.2.params.map (·.type), x.2.results.map (·.type)))
  | _ => none

theorem cached_signatures : signatures (newGenerator cached Demo.inOrder 20 (Demo.local_ g!"Svc")) =
    some [(g!"Get", [g!"string"], [g!"_sourceApp.Item"])] := by decide

theorem cached_unique : UniqueTypes cached := by
  refine Demo.solo_unique ?_
  intro a ha b hb hn
  simp only [List.mem_cons, List.not_mem_nil, or_false] at ha hb
  rcases ha with rfl | rfl | rfl <;> rcases hb with rfl | rfl | rfl <;> first | rfl | (simp [cache, Demo.iface] at hn)

theorem cached_agree : QualifiersAgree cached := by
  refine Demo.solo_agree ?_
  intro ts hts a hq
  simp only [List.mem_cons, List.not_mem_nil, or_false] at hts
  rcases hts with rfl | rfl | rfl
  · cases hq
  · simp only [cache] at hq
    cases hq with
    | elem h1 h2 =>
      simp only [List.mem_cons, List.not_mem_nil, or_false] at h1
      subst h1
      cases h2
  · simp only [Demo.iface] at hq
    cases hq with
    | elem h1 h2 =>
      simp only [List.mem_cons, List.not_mem_nil, or_false] at h1
      subst h1
      cases h2 with
      | indexList h3 => cases h3

/-- The hypotheses hold for it, and the conclusion about `Get` is not vacuous. -/
example : ∃ g m, newGenerator cached Demo.inOrder 20 (Demo.local_ g!"Svc") = .ok g ∧ (g!"Get", m) ∈ g.methods ∧
    ∃ f ts sel d c, Provides cached g.srcPackage sel (.rhs ⟨typeParamNames ts, []⟩) g.srcPackage f ts.type d c ∧
      d.name = g!"Get" := by
  have h := cached_signatures
  unfold signatures at h
  split at h
  · next g hg =>
    obtain ⟨f, ts, sel, _, _, _, _, hall⟩ := C19_arguments_partial Demo.inOrder_fair (Demo.solo_plain _)
      (Demo.solo_loads _) cached_agree cached_unique (Demo.solo_printable (by decide)) hg
    have hm : g!"Get" ∈ g.methods.map (·.1) := by
      have := congrArg (List.map (·.1)) (Option.some.inj h)
      simp only [List.map_map] at this
      exact this ▸ (List.mem_singleton.2 rfl : g!"Get" ∈ [g!"Get"])
    obtain ⟨⟨k, m⟩, hm, rfl⟩ := List.mem_map.1 hm
    obtain ⟨d, c, _, _, _, _, h1, h2, _⟩ := hall _ m hm
    exact ⟨g, m, hg, hm, f, ts, sel, d, c, h1, h2⟩
  · cases h

/-! The counterexample:

    type Sink[T any] interface { Put(xs []T) }
    type Svc interface { Sink[int] }
-/

def sinkMethod : Field := Demo.fld [g!"Put"] (.funcT [Demo.fld [g!"xs"] (.array none (.ident g!"T"))] none)
def sink : TypeSpec := ⟨g!"Sink", some [Demo.fld [g!"T"] (.ident g!"any")], .ifaceT [sinkMethod]⟩
def sinkSvc : TypeSpec := Demo.iface g!"Svc" [Demo.fld [] (.index (.ident g!"Sink") Demo.int_)]
def sinks : World := Demo.solo [sink, sinkSvc]

theorem sinks_signatures : signatures (newGenerator sinks Demo.inOrder 20 (Demo.local_ g!"Svc")) =
    some [(g!"Put", [g!"[]T"], [])] := by decide

theorem sinks_unique : UniqueTypes sinks := by
  refine Demo.solo_unique ?_
  intro a ha b hb hn
  simp only [List.mem_cons, List.not_mem_nil, or_false] at ha hb
  rcases ha with rfl | rfl <;> rcases hb with rfl | rfl <;> first | rfl | (simp [sink, sinkSvc, Demo.iface] at hn)

theorem sinks_agree : QualifiersAgree sinks := by
  refine Demo.solo_agree ?_
  intro ts hts a hq
  simp only [List.mem_cons, List.not_mem_nil, or_false] at hts
  rcases hts with rfl | rfl
  · simp only [sink] at hq
    cases hq with
    | elem h1 h2 =>
      simp only [List.mem_cons, List.not_mem_nil, or_false] at h1
      subst h1
      cases h2
  · simp only [sinkSvc, Demo.iface] at hq
    cases hq with
    | elem h1 h2 =>
      simp only [List.mem_cons, List.not_mem_nil, or_false] at h1
      subst h1
      cases h2 with
      | index h3 => cases h3

/-- The full claim is false: a type parameter inside a type is not replaced. -/
theorem C19_full_false : ¬ C19_full := by
  intro hfull
  have h := sinks_signatures
  unfold signatures at h
  split at h
  · next g hg =>
    have hsrc := solo_src hg
    have h := Option.some.inj h
    obtain ⟨x, hx⟩ : ∃ x, g.methods = [x] := by
      match hm : g.methods with
      | [] => rw [hm] at h; cases h
      | [x] => exact ⟨x, rfl⟩
      | x :: y :: l => rw [hm] at h; simp at h
    obtain ⟨k, m⟩ := x
    rw [hx] at h
    simp only [List.map_cons, List.map_nil, List.cons.injEq, Prod.mk.injEq, and_true] at h
    obtain ⟨rfl, h2, _⟩ := h
    obtain ⟨p, hp⟩ : ∃ p, m.params = [p] := by
      match hm : m.params with
      | [] => rw [hm] at h2; cases h2
      | [p] => exact ⟨p, rfl⟩
      | x :: y :: l => rw [hm] at h2; simp at h2
    rw [hp] at h2
    simp only [List.map_cons, List.map_nil, List.cons.injEq, and_true] at h2
    obtain ⟨env, sel, _, hv, ht⟩ := hfull _ _ _ _ g Demo.inOrder_fair (Demo.solo_plain _) (Demo.solo_loads _)
      sinks_agree sinks_unique (Demo.solo_printable (by decide)) hg (Demo.file [] [sink, sinkSvc]) sinkSvc
      (Demo.fld [] (.index (.ident g!"Sink") Demo.int_)) sink g!"T" Demo.int_ sinkMethod g!"Put"
      [Demo.fld [g!"xs"] (.array none (.ident g!"T"))] none (by rw [hsrc]; exact Demo.solo_files.2 ⟨rfl, rfl⟩)
      (by rw [Demo.declaredIn_file]; simp) rfl rfl rfl (by rw [Demo.declaredIn_file]; simp) rfl rfl rfl rfl
      m (by rw [hx]; simp) 0 (some g!"xs", Demo.fld [g!"xs"] (.array none (.ident g!"T"))) p rfl (by rw [hp]; rfl)
    have hint : env.types.contains g!"int" = false := by
      rw [Bool.eq_false_iff]
      intro hc
      obtain ⟨f, ts, h1, h2, h3⟩ := (hv.types g!"int").1 (by simpa using hc)
      obtain ⟨_, rfl⟩ := Demo.solo_files.1 h1
      rw [Demo.declaredIn_file] at h2
      simp only [List.mem_cons, List.not_mem_nil, or_false] at h2
      rcases h2 with rfl | rfl <;> simp [sink, sinkSvc, Demo.iface] at h3
    have he : replace g!"T" Demo.int_ (Demo.fld [g!"xs"] (.array none (.ident g!"T"))).type =
        .array none (.ident g!"int") := by
      simp [Demo.fld, Field.type, replace, Demo.int_]
    simp only [he, printType, printIdent, hint, Bool.false_eq_true, if_false, hv.raw, Res.ok_bind, printRaw,
      Res.pure_eq, Res.ok.injEq, h2] at ht
    exact absurd ht (by decide)
  · cases h

end Gowrap.Props
