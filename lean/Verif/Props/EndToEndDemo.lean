import Verif.Props.EndToEnd
import Verif.Props.DemoCheck
import Verif.Props.GeneratedDemo
import Verif.Props.Instance
/-!
# An example for C69 and C70

    // app/app.go
    import "context"
    import "ex/store"
    type Item struct { ID string }
    type Svc interface {
      store.Reader[Item]
      Put(ctx context.Context, items ...*Item) (n int, err error)
      Watch(map[string][]Item, func(k string, vs ...int) (ok bool)) <-chan struct{ A, B int }
    }
    // store/store.go
    type Reader[T any] interface { Read(key string) (T, error) }
-/

namespace Gowrap.Demo

open Gowrap Spec Tmpl

def item_ : Expr := .ident g!"Item"

def shopPut : Field := fld [g!"Put"] (.funcT [fld [g!"ctx"] context_, fld [g!"items"] (.ellipsis (.star item_))]
  (some [fld [g!"n"] int_, fld [g!"err"] error_]))

def shopWatch : Field := fld [g!"Watch"] (.funcT
  [fld [] (.mapT string_ (.array none item_)),
   fld [] (.funcT [fld [g!"k"] string_, fld [g!"vs"] (.ellipsis int_)] (some [fld [g!"ok"] (.ident g!"bool")]))]
  (some [fld [] (.chanT .recv (.structT [fld [g!"A", g!"B"] int_]))]))

def shopItem : TypeSpec := ⟨g!"Item", none, .structT [fld [g!"ID"] string_]⟩
def shopSvc : TypeSpec :=
  iface g!"Svc" [fld [] (.index (.selector (.ident g!"store") g!"Reader") item_), shopPut, shopWatch]
def shopRead : Field := fld [g!"Read"] (.funcT [fld [g!"key"] string_] (some [fld [] (.ident g!"T"), fld [] error_]))
def shopReader : TypeSpec := ⟨g!"Reader", some [fld [g!"T"] (.ident g!"any")], .ifaceT [shopRead]⟩

def shopFile : File := file [⟨none, g!"\"context\""⟩, ⟨none, g!"\"ex/store\""⟩] [shopItem, shopSvc]
def storeFile : File := file [] [shopReader]

def shopPkgs : List Pkg :=
  [⟨g!"app", g!"ex/app", [(g!"context", 2), (g!"ex/store", 1)], [shopFile]⟩, ⟨g!"store", g!"ex/store", [], [storeFile]⟩,
   ⟨g!"context", g!"context", [], []⟩]

def shop : World := world shopPkgs

def shopOptions : Options := { interfaceName := g!"Svc", sourcePackage := g!"ex/app", outputFile := g!"/x.go" }

theorem shop_found : Props.signatures (newGenerator shop inOrder 20 shopOptions) = some
    [(g!"Read", [g!"string"], [g!"_sourceApp.Item", g!"error"]),
     (g!"Put", [g!"context.Context", g!"...*_sourceApp.Item"], [g!"int", g!"error"]),
     (g!"Watch", [g!"map[string][]_sourceApp.Item", g!"func(k string, vs ...int) (ok bool)"], [g!"<-chan struct{\nA, B int\n}"])] := by
  decide +kernel

theorem shop_files {p : PkgId} {f : File} : FileOf shop p f ↔ p = 0 ∧ f = shopFile ∨ p = 1 ∧ f = storeFile := by
  unfold shop shopPkgs
  rw [fileOf_world]
  match p with
  | 0 => simp
  | 1 => simp
  | 2 => simp
  | n + 3 => simp

theorem goName_of {s : Str} (h : (match s with | c :: _ => Go.letter c | [] => false) = true ∧ (∀ c ∈ s, (Go.letter c || Go.digit c) = true) ∧
    s ∉ Go.keywords) : GoName s := by
  refine ⟨?_, h.2⟩
  cases s with
  | nil => exact absurd h.1 (by simp)
  | cons c r => exact ⟨c, r, rfl, h.1⟩

/-- The checks for the methods and elements of the example. -/
macro "src_check" : tactic => `(tactic| (
  simp only [SrcType, SrcField, SrcFields, SrcResults, SrcTypes, SrcName, SrcElement, SrcEmbedded, Spec.declared, declaredOpt, fld, item_, context_, string_, int_,
    error_, Uniform, Field.names, Field.type, List.mem_cons, List.not_mem_nil, or_false, forall_eq_or_imp, forall_eq, and_true, true_and, false_implies, implies_true];
  decide +kernel))

theorem ascii_of {l : List (Option Str × Field)} (h : (l.all fun d => match coreName d.2.type with
    | some (c :: _) => c.isAlpha || c == '_'
    | _ => true) = true) : ∀ d ∈ l, ∀ c cs, coreName d.2.type = some (c :: cs) → AsciiLetter c := by
  intro d hd c cs hc
  have := List.all_eq_true.1 h d hd
  rw [hc] at this
  simpa [AsciiLetter] using this

theorem put_source {n : Str} {ps : List Field} {rs : Option (List Field)} (hf : [n] = shopPut.names) (h : .funcT ps rs = shopPut.type) :
    SrcMethod raw n ps rs := by
  cases hf; cases h
  exact ⟨goName_of (by decide +kernel), by src_check, by src_check, ascii_of (by decide +kernel)⟩

theorem watch_source {n : Str} {ps : List Field} {rs : Option (List Field)} (hf : [n] = shopWatch.names) (h : .funcT ps rs = shopWatch.type) :
    SrcMethod raw n ps rs := by
  cases hf; cases h
  exact ⟨goName_of (by decide +kernel), by src_check, by src_check, ascii_of (by decide +kernel)⟩

theorem read_source {n : Str} {ps : List Field} {rs : Option (List Field)} (hf : [n] = shopRead.names) (h : .funcT ps rs = shopRead.type) :
    SrcMethod raw n ps rs := by
  cases hf; cases h
  exact ⟨goName_of (by decide +kernel), by src_check, by src_check, ascii_of (by decide +kernel)⟩

theorem shop_source : SourceOk shop where
  lower := Props.ascii_lower
  names := by
    intro p f hf
    rcases shop_files.1 hf with ⟨rfl, rfl⟩ | ⟨rfl, rfl⟩
    · exact goName_of (by decide +kernel)
    · exact goName_of (by decide +kernel)
  titles := by
    intro p f hf
    rcases shop_files.1 hf with ⟨rfl, rfl⟩ | ⟨rfl, rfl⟩
    · exact goName_of (by decide +kernel)
    · exact goName_of (by decide +kernel)
  specs := by
    have key : ∀ ts ∈ [shopItem, shopSvc, shopReader], SrcSpec raw ts := by
      intro ts hts
      simp only [List.mem_cons, List.not_mem_nil, or_false] at hts
      rcases hts with rfl | rfl | rfl
      · exact ⟨nofun, nofun, nofun⟩
      · refine ⟨nofun, ?_, ?_⟩
        · intro ms hms f hf n ps rs hn ht
          cases hms
          simp only [List.mem_cons, List.not_mem_nil, or_false] at hf
          rcases hf with rfl | rfl | rfl
          · cases hn
          · exact put_source (by cases hn; rfl) ht.symm
          · exact watch_source (by cases hn; rfl) ht.symm
        · intro ms hms f hf
          cases hms
          simp only [List.mem_cons, List.not_mem_nil, or_false] at hf
          rcases hf with rfl | rfl | rfl
          · src_check
          · trivial
          · trivial
      · refine ⟨?_, ?_, ?_⟩
        · intro fs hfs f hf x hx
          cases hfs
          simp only [List.mem_cons, List.not_mem_nil, or_false] at hf
          subst hf
          simp only [fld, Field.names, List.mem_cons, List.not_mem_nil, or_false] at hx
          subst hx
          exact goName_of (by decide +kernel)
        · intro ms hms f hf n ps rs hn ht
          cases hms
          simp only [List.mem_cons, List.not_mem_nil, or_false] at hf
          subst hf
          exact read_source (by cases hn; rfl) ht.symm
        · intro ms hms f hf
          cases hms
          simp only [List.mem_cons, List.not_mem_nil, or_false] at hf
          subst hf
          trivial
    intro p f ts hf hd
    rcases shop_files.1 hf with ⟨rfl, rfl⟩ | ⟨rfl, rfl⟩
    · have := declaredIn_file.1 hd
      exact key ts (by simp at this ⊢; exact this.imp id .inl)
    · have := declaredIn_file.1 hd
      exact key ts (by simp at this ⊢; exact .inr (.inr this))

theorem shop_plain : PlainImports shop := plain_of_check (by decide)
theorem shop_loads : LoadsImports shop := loads_of_check (by decide)
theorem shop_unique : UniqueTypes shop := unique_of_check (by decide)
theorem shop_printable : Printable shop := printable_of_check (by decide)

theorem shop_agree : QualifiersAgree shop := by
  intro p f ts a hf hd hq
  have hcase : p = 0 ∧ f = shopFile ∧ a = g!"store" := by
    rcases shop_files.1 hf with ⟨rfl, rfl⟩ | ⟨rfl, rfl⟩
    · have := declaredIn_file.1 hd
      simp only [List.mem_cons, List.not_mem_nil, or_false] at this
      rcases this with rfl | rfl
      · cases hq
      · simp only [shopSvc, iface] at hq
        cases hq with
        | elem h1 h2 =>
          simp only [List.mem_cons, List.not_mem_nil, or_false] at h1
          rcases h1 with rfl | rfl | rfl
          · cases h2 with
            | index h3 => cases h3; exact ⟨rfl, rfl, rfl⟩
          · cases h2
          · cases h2
    · have := declaredIn_file.1 hd
      simp only [List.mem_cons, List.not_mem_nil, or_false] at this
      subst this
      simp only [shopReader] at hq
      cases hq with
      | elem h1 h2 =>
        simp only [List.mem_cons, List.not_mem_nil, or_false] at h1
        subst h1
        cases h2
  obtain ⟨rfl, rfl, rfl⟩ := hcase
  refine ⟨1, ⟨⟨none, g!"\"ex/store\""⟩, by simp [shopFile, file], g!"ex/store", Or.inl rfl, by simp [shop, shopPkgs, world], Or.inr ⟨rfl, rfl⟩⟩, ?_, ?_⟩
  · rintro g q' hg ⟨imp, hi, path, hl, hm, hn⟩
    rcases shop_files.1 hg with ⟨_, rfl⟩ | ⟨h, _⟩
    · simp [shop, shopPkgs, world] at hm
      rcases hm with ⟨rfl, rfl⟩ | ⟨rfl, rfl⟩
      · exfalso
        simp only [shopFile, file, List.mem_cons, List.not_mem_nil, or_false] at hi
        rcases hi with rfl | rfl <;> revert hn <;> decide
      · rfl
    · cases h
  · intro path q' hm hn
    simp [shop, shopPkgs, world] at hm
    rcases hm with ⟨rfl, rfl⟩ | ⟨rfl, rfl⟩
    · revert hn; decide
    · rfl

theorem shop_supported {p : PkgId} {f : File} {ts : TypeSpec} (hf : FileOf shop p f) (hd : DeclaredIn f ts) :
    SupportedRhs shop p f ts.type := by
  rcases shop_files.1 hf with ⟨rfl, rfl⟩ | ⟨rfl, rfl⟩
  · have := declaredIn_file.1 hd
    simp only [List.mem_cons, List.not_mem_nil, or_false] at this
    rcases this with rfl | rfl
    · trivial
    · intro fd hfd
      simp only [List.mem_cons, List.not_mem_nil, or_false] at hfd
      rcases hfd with rfl | rfl | rfl
      · exact ⟨.inr ⟨_, _, rfl⟩, trivial⟩
      · trivial
      · trivial
  · have := declaredIn_file.1 hd
    simp only [List.mem_cons, List.not_mem_nil, or_false] at this
    subst this
    intro fd hfd
    simp only [List.mem_cons, List.not_mem_nil, or_false] at hfd
    subst hfd
    trivial

theorem shop_options : OptionsOk shopOptions := ⟨goName_of (by decide +kernel), .inl rfl⟩

/-- No variables are given. -/
theorem no_vars {d : Inputs} (h : d.vars = fun _ => none) : GoVars d := by
  constructor <;> simp [h]

/-- The hypotheses of C69 hold for every built-in template, and there is a generator. -/
example : ∃ g, newGenerator shop inOrder 20 shopOptions = .ok g ∧ g.methods.map (·.1) = [g!"Read", g!"Put", g!"Watch"] ∧
    ∀ b ∈ builtins, ∃ t ds, render shop.uni b.text (g.inputs shopOptions fun _ => none) = some t ∧ ConsistsOfGo shop t ds ∧
      DeclaresMethods ds (decoratorName (g.inputs shopOptions fun _ => none) b.suffix) (g.inputs shopOptions fun _ => none) b := by
  have h := shop_found
  unfold Props.signatures at h
  split at h
  · next g hg =>
    refine ⟨g, hg, ?_, fun b hb => Props.C69_source_to_declarations inOrder_fair shop_source shop_options hg (no_vars rfl) b hb⟩
    have := congrArg (List.map (·.1)) (Option.some.inj h)
    simp only [List.map_map] at this
    exact this
  · cases h

/-- The hypotheses of C70 hold for template retry. -/
example (g : Generator) (hg : newGenerator shop inOrder 20 shopOptions = .ok g) :=
  Props.C70_implements_partial inOrder_fair shop_source shop_plain shop_loads shop_agree shop_unique shop_printable shop_options hg
    (fun _ _ hf hd _ => ⟨shop_supported hf hd, fun _ _ _ hr => shop_supported (Props.reaches_declared hr).1 (Props.reaches_declared hr).2⟩)
    (vars := fun _ => none) (no_vars rfl) ⟨Text.retry, g!"WithRetry", .error, true, [g!"_retryCount", g!"_retryInterval"]⟩
    (by simp [builtins]) (fun h => absurd (congrArg (List.take 20) h) (by decide))
    (by
      have h := shop_found
      unfold Props.signatures at h
      rw [hg] at h
      have h := congrArg (List.map (·.1)) (Option.some.inj h)
      simp only [List.map_map] at h
      have hk : ∀ k ∈ g.methods.map (·.1), k ∉ [g!"Svc", g!"_retryCount", g!"_retryInterval"] := by
        rw [show g.methods.map (·.1) = [g!"Read", g!"Put", g!"Watch"] from h]
        decide
      exact fun e he => hk e.1 (List.mem_map.2 ⟨e, he, rfl⟩))

end Gowrap.Demo
