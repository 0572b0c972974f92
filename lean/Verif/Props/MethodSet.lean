import Verif.Proofs.Discovered
import Verif.Props.DemoWorld
/-!
# C20, C21: the decorated methods are the method set of the interface
-/

namespace Gowrap.Props

open Gowrap Gowrap.Spec

/-- Names of the methods of a generator. -/
def found : Res Generator → Option (List Str)
  | .ok g => some (g.methods.map (·.1))
  | _ => none

/-- The methods of `g` are exactly those of the declaration `ts` of file `f`: each method of the method set
is there once, and each has the signature of a declaration in the method set. -/
def ExactMethods (w : World) (o : Options) (g : Generator) (f : File) (ts : TypeSpec) : Prop :=
  (∀ name, name ∈ g.methods.map (·.1) ↔ ∃ d, HasMethod w g.srcPackage f ts.type d ∧ d.name = name) ∧
  (g.methods.map (·.1)).Nodup ∧
  ∃ sel, Selector w o g.srcPackage g.dstPath sel ∧ ∀ name m, (name, m) ∈ g.methods →
    ∃ d c, HasMethod w g.srcPackage f ts.type d ∧ d.name = name ∧ SignatureOf w g.srcPackage sel d c m

/-- The full claim. -/
def C20_full : Prop :=
  ∀ (w : World) (s : Sched) (fuel : Nat) (o : Options) (g : Generator), s.Fair → PlainImports w →
    LoadsImports w → QualifiersAgree w → UniqueTypes w → Printable w → newGenerator w s fuel o = .ok g →
    ∃ f ts, FileOf w g.srcPackage f ∧ DeclaredIn f ts ∧ ts.name = o.interfaceName ∧ ExactMethods w o g f ts

/-- What is discovered is exactly what is reached along the kinds of type expressions gowrap follows; each
method has the signature of a declaration it provides, with the type arguments of the innermost
instantiation on the way to it (see `Provides`, `SignatureOf`); no key occurs twice.  Missing
for the full claim: the kinds of type expressions not followed (see `Followed`). -/
theorem C20_followed_partial {w : World} {s : Sched} {fuel : Nat} {o : Options} {g : Generator} (hs : s.Fair)
    (hp : PlainImports w) (hl : LoadsImports w) (ha : QualifiersAgree w) (hu : UniqueTypes w)
    (hpr : Printable w) (h : newGenerator w s fuel o = .ok g) :
    ∃ f ts, FileOf w g.srcPackage f ∧ DeclaredIn f ts ∧ ts.name = o.interfaceName ∧
      (∀ name, name ∈ g.methods.map (·.1) ↔ ∃ d, Followed w .rhs g.srcPackage f ts.type d ∧ d.name = name) ∧
      (g.methods.map (·.1)).Nodup ∧
      ∃ sel, Selector w o g.srcPackage g.dstPath sel ∧ ∀ name m, (name, m) ∈ g.methods →
        ∃ d c, Provides w g.srcPackage sel (.rhs ⟨typeParamNames ts, []⟩) g.srcPackage f ts.type d c ∧
          d.name = name ∧ SignatureOf w g.srcPackage sel d c m := by
  obtain ⟨files, out, _, _, h3, h4, h5, _⟩ := newGenerator_ok h
  obtain ⟨f, ts, hf, hd, hn, _, hsound⟩ := (sound hs hp hl ha hpr fuel).target _ _ _ _ _ _ _ h3 h4
  refine ⟨f, ts, hf, hd, hn, ?_, ?_, sourceSelector w o g.srcPackage g.dstPath, sourceSelector_spec _ _ _ _, ?_⟩
  · intro name
    constructor
    · intro hm
      obtain ⟨⟨k, m⟩, hkm, rfl⟩ := List.mem_map.1 hm
      obtain ⟨d, c, h1, h2, _⟩ := hsound k m (h5 ▸ hkm)
      exact ⟨d, h2.followed, h1⟩
    · rintro ⟨d, h1, rfl⟩
      rw [h5]
      exact (complete hs hp hl ha hu fuel).target _ _ _ _ _ _ _ f ts h3 h4 hf hd hn d h1
  · rw [h5]
    exact (nodup_discovered w s fuel).target _ _ _ _ _ _ _ h4
  · intro name m hm
    obtain ⟨d, c, h1, h2, h3⟩ := hsound name m (h5 ▸ hm)
    exact ⟨d, c, h2, h1, h3⟩

/-- The full claim holds for interfaces all of whose elements, and transitively all declarations they reach,
are of the supported kinds. -/
theorem C20_supported_partial {w : World} {s : Sched} {fuel : Nat} {o : Options} {g : Generator} (hs : s.Fair)
    (hp : PlainImports w) (hl : LoadsImports w) (ha : QualifiersAgree w) (hu : UniqueTypes w)
    (hpr : Printable w)
    (hsup : ∀ f ts, FileOf w g.srcPackage f → DeclaredIn f ts → ts.name = o.interfaceName →
      Supported w g.srcPackage f ts.type)
    (h : newGenerator w s fuel o = .ok g) :
    ∃ f ts, FileOf w g.srcPackage f ∧ DeclaredIn f ts ∧ ts.name = o.interfaceName ∧ ExactMethods w o g f ts := by
  obtain ⟨f, ts, hf, hd, hn, h1, h2, sel, hsel, h3⟩ := C20_followed_partial hs hp hl ha hu hpr h
  refine ⟨f, ts, hf, hd, hn, ?_, h2, sel, hsel, fun name m hm => ?_⟩
  rotate_left
  · obtain ⟨d, c, h4, h5, h6⟩ := h3 name m hm
    exact ⟨d, c, h4.followed.has hf, h5, h6⟩
  obtain ⟨hsr, hreach⟩ := hsup f ts hf hd hn
  intro name
  rw [h1]
  constructor
  · rintro ⟨d, h4, h5⟩
    exact ⟨d, h4.has hf, h5⟩
  · rintro ⟨d, h4, h5⟩
    exact ⟨d, (supported_followed h4 hreach).1 hsr, h5⟩

/-- A declaration that is reached is declared in a file of its package. -/
theorem reaches_declared {w : World} {p : PkgId} {f : File} {e : Expr} {q : PkgId} {g : File} {ts : TypeSpec}
    (h : Reaches w p f e q g ts) : FileOf w q g ∧ DeclaredIn g ts := by
  induction h with
  | elem _ _ ih => exact ih
  | named h1 h2 => exact ⟨h1, h2⟩
  | selector _ h2 h3 => exact ⟨h2, h3⟩
  | index _ ih => exact ih
  | indexList _ ih => exact ih
  | step _ _ _ ih => exact ih

def extra : Options := { interfaceName := g!"Extra", sourcePackage := g!"ex/app", outputFile := g!"./dst/x.go" }

/-- `app.Extra` embeds `Svc` (declared in another file), which embeds `Base` and `store.Reader` of another
package: all four methods are found, in both iteration orders. -/
example : found (newGenerator Demo.app Demo.inOrder 20 extra) =
    some [g!"Read", g!"Close", g!"Get", g!"Ping"] := by decide
example : found (newGenerator Demo.app Demo.backwards 20 extra) =
    some [g!"Read", g!"Close", g!"Get", g!"Ping"] := by decide

/-- All hypotheses of both theorems hold for it. -/
example (g : Generator) (h : newGenerator Demo.app Demo.backwards 20 extra = .ok g) :
    ∃ f ts, FileOf Demo.app g.srcPackage f ∧ DeclaredIn f ts ∧ ts.name = extra.interfaceName ∧
      ExactMethods Demo.app extra g f ts :=
  C20_supported_partial Demo.backwards_fair Demo.app_plain Demo.app_loads Demo.app_agree Demo.app_unique
    Demo.app_printable
    (fun _ _ hf hd _ => ⟨Demo.app_supported hf hd, fun _ _ _ hr =>
      Demo.app_supported (reaches_declared hr).1 (reaches_declared hr).2⟩) h

/-- `type Svc interface { error; Get() string }` -/
def withError : World :=
  Demo.solo [Demo.iface g!"Svc" [Demo.fld [] Demo.error_, Demo.meth g!"Get" Demo.string_]]

/-- `type Svc interface { interface { Close() error }; Get() string }` -/
def withLiteral : World :=
  Demo.solo [Demo.iface g!"Svc"
    [Demo.fld [] (.ifaceT [Demo.meth g!"Close" Demo.error_]), Demo.meth g!"Get" Demo.string_]]

theorem withError_found : found (newGenerator withError Demo.inOrder 20 (Demo.local_ g!"Svc")) = some [g!"Get"] := by
  decide

theorem withLiteral_found :
    found (newGenerator withLiteral Demo.inOrder 20 (Demo.local_ g!"Svc")) = some [g!"Get"] := by
  decide

theorem found_some {r : Res Generator} {ks : List Str} (h : found r = some ks) :
    ∃ g, r = .ok g ∧ g.methods.map (·.1) = ks := by
  unfold found at h
  split at h
  · next g => exact ⟨g, rfl, Option.some.inj h⟩
  · cases h

theorem solo_src {specs : List TypeSpec} {s : Sched} {fuel : Nat} {name : Str} {g : Generator}
    (h : newGenerator (Demo.solo specs) s fuel (Demo.local_ name) = .ok g) : g.srcPackage = 0 := by
  obtain ⟨_, _, h1, _⟩ := newGenerator_ok h
  exact (Res.ok.inj h1).symm

theorem withError_has : HasMethod withError 0 (Demo.file [] [Demo.iface g!"Svc" [Demo.fld [] Demo.error_, Demo.meth g!"Get" Demo.string_]])
    (Demo.iface g!"Svc" [Demo.fld [] Demo.error_, Demo.meth g!"Get" Demo.string_]).type ⟨g!"Error", errorField, none⟩ := by
  refine .embedded (fd := Demo.fld [] Demo.error_) (by simp) (.builtin ?_)
  intro f' ts hf hd
  obtain ⟨_, rfl⟩ := Demo.solo_files.1 hf
  rw [Demo.declaredIn_file] at hd
  simp at hd
  subst hd
  decide

theorem withError_agree : QualifiersAgree withError := by
  refine Demo.solo_agree ?_
  intro ts hts a hq
  simp at hts
  subst hts
  cases hq with
  | elem h1 h2 =>
    simp at h1
    rcases h1 with rfl | rfl <;> cases h2

theorem withError_unique : UniqueTypes withError := by
  refine Demo.solo_unique ?_
  intro a ha b hb _
  simp at ha hb
  rw [ha, hb]

/-- The full claim is false: methods of an embedded `error` are lost. -/
theorem C20_full_false : ¬ C20_full := by
  intro hfull
  obtain ⟨g, hg, hks⟩ := found_some withError_found
  obtain ⟨f, ts, hf, hd, _, hex, _⟩ := hfull _ _ _ _ g Demo.inOrder_fair (Demo.solo_plain _) (Demo.solo_loads _)
    withError_agree withError_unique (Demo.solo_printable (by decide)) hg
  have hsrc := solo_src hg
  rw [hsrc] at hf
  obtain ⟨_, rfl⟩ := Demo.solo_files.1 hf
  rw [Demo.declaredIn_file] at hd
  simp only [List.mem_cons, List.not_mem_nil, or_false] at hd
  subst hd
  have := (hex g!"Error").2 ⟨_, hsrc ▸ withError_has, rfl⟩
  rw [hks] at this
  exact absurd this (by decide)

/-! ### C21 -/

/-- The full claim: a returned generator has every method of the interface. -/
def C21_full : Prop :=
  ∀ (w : World) (s : Sched) (fuel : Nat) (o : Options) (g : Generator), s.Fair → PlainImports w →
    LoadsImports w → QualifiersAgree w → UniqueTypes w → Printable w → newGenerator w s fuel o = .ok g →
    ∀ f ts d, FileOf w g.srcPackage f → DeclaredIn f ts → ts.name = o.interfaceName →
      HasMethod w g.srcPackage f ts.type d → d.name ∈ g.methods.map (·.1)

/-- If a returned generator lacks a method of the interface, then the interface or a declaration it reaches
is of one of the kinds that are not supported (see `SupportedRhs`, `SupportedElem`).  In particular nothing
is lost by an element that cannot be resolved to an interface: generation fails then. -/
theorem C21_no_loss_partial {w : World} {s : Sched} {fuel : Nat} {o : Options} {g : Generator} (hs : s.Fair)
    (hp : PlainImports w) (hl : LoadsImports w) (ha : QualifiersAgree w) (hu : UniqueTypes w)
    (h : newGenerator w s fuel o = .ok g) {f : File} {ts : TypeSpec} {d : MethodDecl}
    (hf : FileOf w g.srcPackage f) (hd : DeclaredIn f ts) (hn : ts.name = o.interfaceName)
    (hm : HasMethod w g.srcPackage f ts.type d) (hlost : d.name ∉ g.methods.map (·.1)) :
    ¬ SupportedRhs w g.srcPackage f ts.type ∨
      ∃ q g' ts', Reaches w g.srcPackage f ts.type q g' ts' ∧ ¬ SupportedRhs w q g' ts'.type := by
  refine Classical.byContradiction fun hno => hlost ?_
  have h1 : SupportedRhs w g.srcPackage f ts.type := Classical.byContradiction fun hn => hno (Or.inl hn)
  have h2 : ∀ q g' ts', Reaches w g.srcPackage f ts.type q g' ts' → SupportedRhs w q g' ts'.type :=
    fun q g' ts' hr => Classical.byContradiction fun hn => hno (Or.inr ⟨q, g', ts', hr, hn⟩)
  obtain ⟨files, out, _, _, h3, h4, h5, _⟩ := newGenerator_ok h
  rw [h5]
  exact (complete hs hp hl ha hu fuel).target _ _ _ _ _ _ _ f ts h3 h4 hf hd hn d
    ((supported_followed hm h2).1 h1)

/-- The hypotheses are met by an embedded `error`, the reason being that the declaration is not supported. -/
example : ∃ g, newGenerator withError Demo.inOrder 20 (Demo.local_ g!"Svc") = .ok g ∧
    g!"Error" ∉ g.methods.map (·.1) := by
  obtain ⟨g, hg, hks⟩ := found_some withError_found
  exact ⟨g, hg, by rw [hks]; decide⟩

/-- An element naming a type that is not an interface is refused, not skipped:
`type T struct{}; type Svc interface { T; Get() string }`. -/
example : newGenerator (Demo.solo [⟨g!"T", none, .structT []⟩,
      Demo.iface g!"Svc" [Demo.fld [] (.ident g!"T"), Demo.meth g!"Get" Demo.string_]])
    Demo.inOrder 20 (Demo.local_ g!"Svc") = .err (.notAnInterface g!"T") := by rfl

/-- The full claim is false: an interface literal as an element is skipped. -/
theorem C21_full_false : ¬ C21_full := by
  intro hfull
  obtain ⟨g, hg, hks⟩ := found_some withLiteral_found
  have hsrc := solo_src hg
  have hq : QualifiersAgree withLiteral := by
    refine Demo.solo_agree ?_
    intro ts hts a hq
    simp at hts
    subst hts
    cases hq with
    | elem h1 h2 =>
      simp at h1
      rcases h1 with rfl | rfl
      · cases h2 with
        | elem h1 h2 =>
          simp at h1
          subst h1
          cases h2
      · cases h2
  have hu : UniqueTypes withLiteral := by
    refine Demo.solo_unique ?_
    intro a ha b hb _
    simp at ha hb
    rw [ha, hb]
  have := hfull _ _ _ _ g Demo.inOrder_fair (Demo.solo_plain _) (Demo.solo_loads _) hq hu
    (Demo.solo_printable (by decide)) hg
    (Demo.file [] _) (Demo.iface g!"Svc" _) ⟨g!"Close", Demo.meth g!"Close" Demo.error_, some 0⟩
    (by rw [hsrc]; exact Demo.solo_files.2 ⟨rfl, rfl⟩) (by rw [Demo.declaredIn_file]; exact List.mem_singleton.2 rfl) rfl
    (by
      rw [hsrc]
      exact .embedded (List.mem_cons_self ..)
        (.declared (List.mem_singleton.2 rfl) rfl rfl))
  rw [hks] at this
  exact absurd this (by decide)

end Gowrap.Props
