import Verif.Proofs.Halts
import Verif.Proofs.Sound
/-!
# Termination of method discovery
-/

namespace Gowrap

open Gowrap.Spec

/-- With a large enough recursion bound the function returns, always with the same outcome. -/
def Conv {α : Type} (F : Nat → Res α) : Prop := ∃ N r, r ≠ .diverge ∧ ∀ n, N ≤ n → F n = r

theorem Conv.const {α : Type} {r : Res α} (h : r.Halts) : Conv fun _ => r := ⟨0, r, h, fun _ _ => rfl⟩

theorem Conv.bind {α β : Type} {F : Nat → Res α} {G : Nat → α → Res β} (hF : Conv F)
    (hG : ∀ a, (∃ n, F n = .ok a) → Conv fun n => G n a) : Conv fun n => F n >>= G n := by
  obtain ⟨N, r, hr, hN⟩ := hF
  cases r with
  | ok a =>
    obtain ⟨M, r', hr', hM⟩ := hG a ⟨N, hN N (Nat.le_refl _)⟩
    refine ⟨max N M, r', hr', fun n hn => ?_⟩
    show F n >>= G n = r'
    rw [hN n (by omega), Res.ok_bind]
    exact hM n (by omega)
  | err e => exact ⟨N, .err e, by simp, fun n hn => by show F n >>= G n = _; rw [hN n hn]; rfl⟩
  | panic => exact ⟨N, .panic, by simp, fun n hn => by show F n >>= G n = _; rw [hN n hn]; rfl⟩
  | diverge => exact absurd rfl hr

theorem Conv.succ {α : Type} {F G : Nat → Res α} (h : Conv G) (hF : ∀ n, F (n + 1) = G n) : Conv F := by
  obtain ⟨N, r, hr, hN⟩ := h
  refine ⟨N + 1, r, hr, fun n hn => ?_⟩
  obtain ⟨m, rfl⟩ : ∃ m, n = m + 1 := ⟨n - 1, by omega⟩
  rw [hF]
  exact hN m (by omega)

/-- The input describes package `p`. -/
structure Describes (w : World) (p : PkgId) (i : Input) : Prop where
  cur : i.cur = p
  types : ∀ ts ∈ i.types, Declares w p ts

/-- Looking up any type in any package imported by `p` terminates. -/
def ImportsConv (w : World) (s : Sched) (p : PkgId) : Prop :=
  ∀ q ipath, (ipath, q) ∈ (w.pkg p).imports → ∀ path pref files name gps, w.files q = .ok files →
    Conv fun n => findTarget w s n path q pref files name gps

/-- Processing the interface declared by `ts` terminates. -/
def IfaceConv (w : World) (s : Sched) (p : PkgId) (ts : TypeSpec) : Prop :=
  ∀ path ms i, Describes w p i → ts.type = .ifaceT ms → Conv fun n => processInterface w s n path ms i

theorem selector_conv {w : World} {s : Sched} {p : PkgId} (he : ExternalsReturn w) (hi : ImportsConv w s p)
    {path : List Nat} {x : Expr} {sel : Str} {i : Input} (hd : Describes w p i) :
    Conv fun n => processSelector w s n path x sel i := by
  by_cases hx : ∃ a, x = .ident a
  · obtain ⟨a, rfl⟩ := hx
    refine Conv.succ (Conv.bind (Conv.const (findImport_halts w a i.imports (s.imports path (w.pkg i.cur).imports)))
      (G := fun n importPath => match (w.pkg i.cur).imports.lookup importPath with
        | none => .err (.packageNotFound a)
        | some p => do
          let files ← w.files p
          let out ← findTarget w s n (0 :: path) p (w.pkg p).name files sel i.genericParams
          return out.methods) ?_) (fun n => by rw [processSelector]; rfl)
    rintro ip -
    cases hl : (w.pkg i.cur).imports.lookup ip with
    | none => exact Conv.const (halts_err _)
    | some q =>
      refine Conv.bind (Conv.const (he.files q)) fun files ⟨_, hf⟩ => ?_
      refine Conv.bind ?_ fun out _ => Conv.const (halts_pure _)
      exact hi q ip (hd.cur ▸ lookup_mem hl) _ _ _ _ _ hf
  · refine Conv.succ (Conv.const (halts_panic)) (fun n => ?_)
    rw [processSelector]
    intro a ha
    exact hx ⟨a, ha⟩

theorem ident_conv {w : World} {s : Sched} {p : PkgId} {path : List Nat} {name : Str} {b : Bool} {i : Input}
    (hd : Describes w p i) (h : ∀ ts, Declares w p ts → ts.name = name → IfaceConv w s p ts) :
    Conv fun n => processIdent w s n path name i b := by
  refine Conv.succ (Conv.bind (Conv.const (findEmbedded_halts i.types name b)) (G := fun n fe =>
    match fe with
    | none => return none
    | some (t, ms) => do
      let gts ← buildGenericTypesFromSpec t (i.types.map (·.name)) i.pref
      processInterface w s n (0 :: path) ms { i with genericTypes := gts }) ?_) (fun n => by rw [processIdent]; rfl)
  rintro fe ⟨_, hfe⟩
  cases fe with
  | none => exact Conv.const (halts_pure _)
  | some x =>
    obtain ⟨t, ms⟩ := x
    obtain ⟨h1, h2, h3⟩ := findEmbedded_spec hfe
    refine Conv.bind (Conv.const (buildGenericTypes_halts _ _ _)) fun gts _ => ?_
    exact h t (hd.types t h1) h2 _ _ _ ⟨hd.cur, hd.types⟩ h3

theorem getEmbedded_conv {w : World} {s : Sched} {p : PkgId} (he : ExternalsReturn w) (hi : ImportsConv w s p)
    {path : List Nat} {e : Expr} {b : Bool} {i : Input} (hd : Describes w p i)
    (h : ∀ ts, Declares w p ts → MentionsName ts.name e → IfaceConv w s p ts) :
    Conv fun n => getEmbeddedMethods w s n path e i b := by
  refine Conv.succ (Conv.bind (Conv.const (printType_halts (i.sigEnv w).print e)) (G := fun n name =>
    match e with
    | .selector x sel => do
      let ms ← processSelector w s n (0 :: path) x sel i
      return (GParam.mk name [], ms)
    | .ident a => do
      let ms ← processIdent w s n (0 :: path) a i b
      return (GParam.mk name [], ms)
    | _ => return (GParam.mk name [], none)) ?_) (fun n => by rw [getEmbeddedMethods.eq_def]; rfl)
  rintro name -
  split
  · exact Conv.bind (selector_conv he hi hd) fun _ _ => Conv.const (halts_pure _)
  · refine Conv.bind (ident_conv hd ?_) fun _ _ => Conv.const (halts_pure _)
    intro ts hts hn
    subst hn
    exact h ts hts .here
  · exact Conv.const (halts_pure _)

theorem args_conv {w : World} {s : Sched} {i : Input} : ∀ (es : List Expr) (path : List Nat) (acc : List GParam),
    (∀ e ∈ es, ∀ path, Conv fun n => processEmbedded w s n path e i false) →
    Conv fun n => processArgs w s n path es i acc
  | [], path, acc, _ => Conv.succ (Conv.const (halts_ok acc)) (fun n => by rw [processArgs])
  | e :: es, path, acc, h => by
    refine Conv.succ (Conv.bind (h e (by simp) (0 :: path)) (G := fun n x =>
      processArgs w s n (1 :: path) es i (appendParam acc x.1)) ?_) (fun n => by rw [processArgs])
    intro x _
    exact args_conv es _ _ fun e' he' => h e' (List.mem_cons_of_mem _ he')

theorem embedded_conv {w : World} {s : Sched} {p : PkgId} (he : ExternalsReturn w) (hi : ImportsConv w s p)
    (e : Expr) (path : List Nat) (b : Bool) (i : Input) (hd : Describes w p i)
    (h : ∀ ts, Declares w p ts → MentionsName ts.name e → IfaceConv w s p ts) :
    Conv fun n => processEmbedded w s n path e i b := by
  match e with
  | .index x idx =>
    have hargs : ∀ path, Conv fun n => processArgs w s n path [idx] i [] := by
      intro path
      refine args_conv _ _ _ ?_
      intro e' he' path'
      rw [List.mem_singleton.1 he']
      exact embedded_conv he hi idx path' false i hd fun ts hts hm => h ts hts (.arg hm)
    refine Conv.succ (Conv.bind (hargs (1 :: path)) (G := fun n gps => do
      let (p, ms) ← getEmbeddedMethods w s n (0 :: path) x { i with genericParams := gps } b
      return (GParam.mk p.name gps, ms)) ?_) (fun n => by rw [processEmbedded])
    intro gps _
    refine Conv.bind ?_ fun _ _ => Conv.const (halts_pure _)
    exact getEmbedded_conv he hi ⟨hd.cur, hd.types⟩ fun ts hts hm => h ts hts (.index hm)
  | .indexList x is =>
    have hargs : ∀ path, Conv fun n => processArgs w s n path is i [] := by
      intro path
      refine args_conv _ _ _ ?_
      intro e' he' path'
      have : sizeOf e' < sizeOf is := List.sizeOf_lt_of_mem he'
      exact embedded_conv he hi e' path' false i hd fun ts hts hm => h ts hts (.listArg he' hm)
    refine Conv.succ (Conv.bind (hargs (1 :: path)) (G := fun n gps => do
      let (p, ms) ← getEmbeddedMethods w s n (0 :: path) x { i with genericParams := gps } b
      return (GParam.mk p.name gps, ms)) ?_) (fun n => by rw [processEmbedded])
    intro gps _
    refine Conv.bind ?_ fun _ _ => Conv.const (halts_pure _)
    exact getEmbedded_conv he hi ⟨hd.cur, hd.types⟩ fun ts hts hm => h ts hts (.indexList hm)
  | .ident _ | .selector _ _ | .star _ | .sliceExpr _ | .ellipsis _ | .array _ _ | .mapT _ _ | .chanT _ _
  | .funcT _ _ | .structT _ | .ifaceT _ | .paren _ | .lit _ | .unary _ _ | .binary _ _ _ | .other _ =>
    exact Conv.succ (getEmbedded_conv (b := b) (path := 0 :: path) (i := { i with genericParams := [] }) he hi
      ⟨hd.cur, hd.types⟩ h) (fun n => by rw [processEmbedded.eq_def])
termination_by sizeOf e

theorem fields_conv {w : World} {s : Sched} {p : PkgId} (he : ExternalsReturn w) (hi : ImportsConv w s p)
    {i : Input} (hd : Describes w p i) : ∀ (ms : List Field) (path : List Nat) (acc : Methods),
    (∀ ts, Declares w p ts → MentionsName ts.name (.ifaceT ms) → IfaceConv w s p ts) →
    Conv fun n => processFields w s n path ms i acc
  | [], path, acc, _ => Conv.succ (Conv.const (halts_ok (some acc))) (fun n => by rw [processFields])
  | fd :: rest, path, acc, h => by
    have hrest : ∀ path acc, Conv fun n => processFields w s n path rest i acc := by
      intro path acc
      refine fields_conv he hi hd rest path acc ?_
      intro ts hts hm
      cases hm with
      | elem h1 h2 => exact h ts hts (.elem (List.mem_cons_of_mem _ h1) h2)
    by_cases hf : ∃ ps rs, fd.type = .funcT ps rs
    · obtain ⟨ps, rs, hf⟩ := hf
      cases hn : fd.names with
      | nil => exact Conv.succ (Conv.const halts_panic) (fun n => by simp only [processFields, hf, hn])
      | cons name names =>
        refine Conv.succ (Conv.bind (Conv.const (newMethod_halts (i.sigEnv w) name fd)) (G := fun n method =>
          processFields w s n (1 :: path) rest i (upsert name method acc)) ?_)
          (fun n => by simp only [processFields, hf, hn])
        intro m _
        exact hrest _ _
    · refine Conv.succ (Conv.bind (embedded_conv he hi fd.type (0 :: path) true i hd ?_) (G := fun n x =>
          processFields w s n (1 :: path) rest i ((mergeMethods (some acc) x.2).getD [])) ?_)
          (fun n => ?_)
      · intro ts hts hm
        exact h ts hts (.elem (by simp) hm)
      · intro x _
        exact hrest _ _
      · simp only [processFields]
        split
        · next ps rs hf' => exact absurd ⟨ps, rs, hf'⟩ hf
        · rfl

theorem declares_iface_conv {w : World} {s : Sched} {p : PkgId} (he : ExternalsReturn w)
    (ha : AcyclicTypes w MentionsName) (hi : ImportsConv w s p) (ts : TypeSpec) (hts : Declares w p ts) :
    IfaceConv w s p ts := by
  revert hts
  refine (ha p).induction (C := fun ts => Declares w p ts → IfaceConv w s p ts) ts ?_
  intro ts ih hts path ms i hd hty
  refine Conv.succ (fields_conv he hi hd ms (0 :: path) [] ?_) (fun n => by rw [processInterface])
  intro ts' hts' hm
  exact ih ts' ⟨hts', hts, hty ▸ hm⟩ hts'

theorem findMethods_conv {w : World} {s : Sched} {p : PkgId} (he : ExternalsReturn w) (hp : PlainImports w)
    (hl : LoadsImports w) (ha : AcyclicTypes w MentionsName) (hi : ImportsConv w s p) (ts : TypeSpec)
    (hts : Declares w p ts) : ∀ path i f, Describes w p i → FileOf w p f → i.imports = f.imports →
      (∀ t ∈ i.file, Declares w p t) → Conv fun n => findMethods w s n path ts i := by
  revert hts
  refine (ha p).induction (C := fun ts => Declares w p ts → ∀ path i f, Describes w p i → FileOf w p f →
    i.imports = f.imports → (∀ t ∈ i.file, Declares w p t) → Conv fun n => findMethods w s n path ts i) ts ?_
  intro ts ih hts path i f hd hf himp hfile
  cases hty : ts.type with
  | ifaceT ms =>
    exact Conv.succ (declares_iface_conv he ha hi ts hts (0 :: path) ms i hd hty)
      (fun n => by simp only [findMethods, hty])
  | selector x sel =>
    by_cases hx : ∃ a, x = .ident a
    · obtain ⟨a, rfl⟩ := hx
      refine Conv.succ (G := fun n => getMethods w s n (0 :: path) sel (findSourcePackage a i.imports)) ?_
        (fun n => by simp only [findMethods, hty])
      refine Conv.succ (Conv.bind (Conv.const (he.load (findSourcePackage a i.imports))) (G := fun n q => do
        let files ← w.files q
        let out ← findTarget w s n (0 :: 0 :: path) q (w.pkg q).name files sel []
        return out.methods) ?_) (fun n => by rw [getMethods])
      rintro q ⟨_, hq⟩
      refine Conv.bind (Conv.const (he.files q)) fun files ⟨_, hfs⟩ => ?_
      refine Conv.bind ?_ fun _ _ => Conv.const (halts_pure _)
      rw [himp] at hq
      obtain ⟨imp, _, ipath, _, hmem, _⟩ := resolve_source hp hl hf hq
      exact hi q ipath hmem _ _ _ _ _ hfs
    · refine Conv.succ (Conv.const (halts_ok (none : Option Methods))) (fun n => ?_)
      simp only [findMethods, hty]
      split
      · next a => exact absurd ⟨a, rfl⟩ hx
      · rfl
  | ident n =>
    cases hfind : i.file.find? (fun t => t.name = n) with
    | none =>
      exact Conv.succ (Conv.const (halts_ok (none : Option Methods)))
        (fun m => by simp only [findMethods, hty, hfind])
    | some ts' =>
      have h1 : ts'.name = n := by simpa using List.find?_some hfind
      have h2 := hfile ts' (List.mem_of_find?_eq_some hfind)
      refine Conv.succ (ih ts' ⟨h2, hts, ?_⟩ h2 (0 :: path) i f hd hf himp hfile)
        (fun m => by simp only [findMethods, hty, hfind])
      rw [hty, h1]
      exact .here
  | star _ | sliceExpr _ | ellipsis _ | array _ _ | mapT _ _ | chanT _ _ | funcT _ _ | structT _ | index _ _
  | indexList _ _ | paren _ | lit _ | unary _ _ | binary _ _ _ | other _ =>
    exact Conv.succ (Conv.const (halts_ok (none : Option Methods))) (fun m => by simp only [findMethods, hty])

theorem findTarget_conv {w : World} {s : Sched} (hs : s.Fair) (he : ExternalsReturn w) (hp : PlainImports w)
    (hl : LoadsImports w) (ha : AcyclicTypes w MentionsName) (hai : AcyclicImports w) (p : PkgId) :
    ∀ path pref files name gps, w.files p = .ok files →
      Conv fun n => findTarget w s n path p pref files name gps := by
  refine hai.induction (C := fun p => ∀ path pref files name gps, w.files p = .ok files →
      Conv fun n => findTarget w s n path p pref files name gps) p ?_
  intro p ih path pref files name gps hf
  have hi : ImportsConv w s p := fun q ipath hq => ih q ⟨ipath, hq⟩
  cases hsel : (iterateFiles name (s.files path files)).selected with
  | none =>
    exact Conv.succ (Conv.const (halts_err (.targetNotFound name))) (fun n => by simp only [findTarget, hsel])
  | some x =>
    obtain ⟨ts, f⟩ := x
    obtain ⟨h1, h2, h3⟩ := iterateFiles_some hsel
    have hff : FileOf w p f := ⟨files, hf, (hs.files path files).mem_iff.1 h1⟩
    refine Conv.succ (Conv.bind (Conv.const (buildGenericTypes_halts ts
        ((iterateFiles name (s.files path files)).types.map (·.name)) pref)) (G := fun n gts => do
      let methods ← findMethods w s n (0 :: path) ts
        { cur := p, types := (iterateFiles name (s.files path files)).types, pref := pref, imports := f.imports,
          file := typeSpecs f, genericTypes := gts, genericParams := gps }
      return { genericTypes := gts, methods := methods, imports := f.imports }) ?_)
      (fun n => by simp only [findTarget, hsel])
    intro gts _
    refine Conv.bind ?_ fun _ _ => Conv.const (halts_pure _)
    refine findMethods_conv he hp hl ha hi ts ⟨f, hff, h2⟩ _ _ f ⟨rfl, ?_⟩ hff rfl ?_
    · intro t ht
      obtain ⟨f', h4, h5⟩ := (mem_types t).1 ht
      exact ⟨f', ⟨files, hf, (hs.files path files).mem_iff.1 h4⟩, h5⟩
    · intro t ht
      exact ⟨f, hff, (mem_typeSpecs f t).1 ht⟩

end Gowrap
