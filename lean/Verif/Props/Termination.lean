import Verif.Proofs.Terminate
import Verif.Props.MethodSet
import Verif.Props.DemoCheck
/-!
# C25: termination of method discovery
-/

namespace Gowrap.Props

open Gowrap Gowrap.Spec

/-- `NewGenerator` returns: there is a recursion depth which it never exceeds, and the outcome is the same for
every larger bound. -/
def Terminates (w : World) (s : Sched) (o : Options) : Prop :=
  ∃ N r, r ≠ .diverge ∧ ∀ n, N ≤ n → newGenerator w s n o = r

/-- The full claim: discovery terminates whenever the embedding relation is acyclic. -/
def C25_full : Prop :=
  ∀ (w : World) (s : Sched) (o : Options), s.Fair → ExternalsReturn w → PlainImports w → LoadsImports w →
    AcyclicImports w → AcyclicTypes w EmbedsName → Terminates w s o

theorem checkExported_halts (w : World) (sel : Str) : ∀ ms : Methods, (checkExported w sel ms).Halts
  | [] => halts_ok _
  | (_, m) :: rest => by
    have ih := checkExported_halts w sel rest
    unfold checkExported
    split
    · split
      · exact halts_panic
      · exact halts_err _
      · exact ih
    · exact ih

/-- **C25** (partial).  Discovery terminates, for every interface and all iteration orders, when imports are
acyclic and no type declaration mentions itself through embedded elements *including their type arguments*.
Missing for the full claim: an interface that occurs in a type argument of an interface it embeds. -/
theorem C25_terminates_partial {w : World} {s : Sched} {o : Options} (hs : s.Fair) (he : ExternalsReturn w)
    (hp : PlainImports w) (hl : LoadsImports w) (hai : AcyclicImports w) (ha : AcyclicTypes w MentionsName) :
    Terminates w s o := by
  show Conv fun n => newGenerator w s n o
  have h1 : (loadSource w o).Halts := by
    unfold loadSource
    split
    · exact halts_ok _
    · exact he.load _
  have h2 : ∀ path, (loadDestinationPackage w path).Halts := by
    intro path
    unfold loadDestinationPackage
    split
    · exact halts_ok _
    · unfold makePackage; split
      · exact halts_err _
      · exact halts_ok _
    · exact halts_panic
    · next h => exact absurd h (he.load path)
  simp only [newGenerator]
  refine Conv.bind (Conv.const h1) fun src _ => ?_
  refine Conv.bind (Conv.const (h2 _)) fun dst _ => ?_
  refine Conv.bind (Conv.const (he.files src)) fun files ⟨_, hf⟩ => ?_
  refine Conv.bind (findTarget_conv hs he hp hl ha hai src _ _ _ _ _ hf) fun out _ => ?_
  refine Conv.const ?_
  split
  · exact halts_err _
  · exact (checkExported_halts _ _ _).bind fun _ => halts_pure _

/-! The hypotheses hold for the two packages of `app`. -/

mutual
/-- All names `MentionsName` can find. -/
def mentioned : Expr → List Str
  | .ident n => [n]
  | .ifaceT ms => mentionedFields ms
  | .index x i => mentioned x ++ mentioned i
  | .indexList x is => mentioned x ++ mentionedAll is
  | _ => []
def mentionedFields : List Field → List Str
  | [] => []
  | fd :: r => mentionedField fd ++ mentionedFields r
def mentionedField : Field → List Str
  | .mk _ _ _ t _ => mentioned t
def mentionedAll : List Expr → List Str
  | [] => []
  | e :: r => mentioned e ++ mentionedAll r
end

theorem mem_mentionedFields {n : Str} {fd : Field} : ∀ {ms : List Field}, fd ∈ ms → n ∈ mentioned fd.type →
    n ∈ mentionedFields ms
  | x :: r, h, hn => by
    rw [mentionedFields, List.mem_append]
    rcases List.mem_cons.1 h with rfl | h
    · exact Or.inl (by cases fd; simpa [mentionedField, Field.type] using hn)
    · exact Or.inr (mem_mentionedFields h hn)

theorem mem_mentionedAll {n : Str} {e : Expr} : ∀ {es : List Expr}, e ∈ es → n ∈ mentioned e → n ∈ mentionedAll es
  | x :: r, h, hn => by
    rw [mentionedAll, List.mem_append]
    rcases List.mem_cons.1 h with rfl | h
    · exact Or.inl hn
    · exact Or.inr (mem_mentionedAll h hn)

theorem mentioned_of {n : Str} {e : Expr} (h : MentionsName n e) : n ∈ mentioned e := by
  induction h with
  | here => simp [mentioned]
  | elem h1 _ ih => rw [mentioned]; exact mem_mentionedFields h1 ih
  | index _ ih => rw [mentioned]; exact List.mem_append_left _ ih
  | indexList _ ih => rw [mentioned]; exact List.mem_append_left _ ih
  | arg _ ih => rw [mentioned]; exact List.mem_append_right _ ih
  | listArg h1 _ ih => rw [mentioned]; exact List.mem_append_right _ (mem_mentionedAll h1 ih)

theorem acyclic_of_rank {w : World} {R : Str → Expr → Prop} (rank : Str → Nat)
    (h : ∀ p ts' ts, Declares w p ts' → Declares w p ts → R ts'.name ts.type → rank ts'.name < rank ts.name) :
    AcyclicTypes w R := fun p =>
  Subrelation.wf (r := (measure fun ts : TypeSpec => rank ts.name).rel)
    (fun {a b} hab => h p a b hab.1 hab.2.1 hab.2.2) (measure fun ts : TypeSpec => rank ts.name).wf

/-- Ranks of the declarations of `app`. -/
def rank (n : Str) : Nat :=
  if n = g!"Extra" then 3 else if n = g!"Svc" ∨ n = g!"Writer" ∨ n = g!"Key" then 2 else 1

theorem app_declares {p : PkgId} {ts : TypeSpec} (h : Declares Demo.app p ts) :
    ts ∈ (typeSpecs Demo.fileA ++ typeSpecs Demo.fileB) ++ typeSpecs Demo.fileS := by
  obtain ⟨f, hf, hd⟩ := h
  have hd := (mem_typeSpecs f ts).2 hd
  rw [Demo.app_files] at hf
  simp only [List.mem_append]
  rcases hf with ⟨_, rfl | rfl⟩ | ⟨_, rfl⟩
  · exact Or.inl (Or.inl hd)
  · exact Or.inl (Or.inr hd)
  · exact Or.inr hd

theorem app_returns : ExternalsReturn Demo.app := by
  refine ⟨?_, ?_⟩
  · intro p
    match p with
    | 0 => intro h; cases h
    | 1 => intro h; cases h
    | n + 2 => simp [Demo.app, Demo.world]
  · intro path
    simp only [Demo.app, Demo.world]
    split <;> simp

theorem app_acyclicImports : AcyclicImports Demo.app := by
  refine Subrelation.wf (r := (measure fun p : PkgId => 1 - p).rel) ?_ (measure fun p : PkgId => 1 - p).wf
  intro q p ⟨path, h⟩
  match p with
  | 0 => simp [Demo.app, Demo.world] at h; rw [h.2]; show 1 - 1 < 1 - 0; decide
  | 1 => simp [Demo.app, Demo.world] at h
  | n + 2 => simp [Demo.app, Demo.world] at h

theorem app_acyclicTypes : AcyclicTypes Demo.app MentionsName := by
  refine acyclic_of_rank rank ?_
  intro p ts' ts h' h hm
  have all : ∀ a ∈ (typeSpecs Demo.fileA ++ typeSpecs Demo.fileB) ++ typeSpecs Demo.fileS,
      ∀ b ∈ (typeSpecs Demo.fileA ++ typeSpecs Demo.fileB) ++ typeSpecs Demo.fileS,
        b.name ∈ mentioned a.type → rank b.name < rank a.name := by
    simp only [typeSpecs, Demo.fileA, Demo.fileB, Demo.fileS, Demo.file, Demo.iface, Demo.meth, Demo.fld,
      List.map_cons, List.map_nil, List.flatMap_cons, List.flatMap_nil, List.append_nil, List.cons_append,
      List.nil_append, List.forall_mem_cons, mentioned, mentionedFields, mentionedField]
    simp [rank]
  exact all _ (app_declares h) _ (app_declares h') (mentioned_of hm)

example (s : Sched) (hs : s.Fair) (o : Options) : Terminates Demo.app s o :=
  C25_terminates_partial hs app_returns Demo.app_plain Demo.app_loads app_acyclicImports app_acyclicTypes

/-! The counterexample (valid Go):

    type Ordered[T any] interface { Less() T }
    type Item interface { Ordered[Item] }
-/

def ordered : TypeSpec :=
  ⟨g!"Ordered", some [Demo.fld [g!"T"] (.ident g!"any")], .ifaceT [Demo.meth g!"Less" (.ident g!"T")]⟩
def item : TypeSpec :=
  Demo.iface g!"Item" [Demo.fld [] (.index (.ident g!"Ordered") (.ident g!"Item"))]
def recursive : World := Demo.solo [ordered, item]

theorem recursive_diverges (s : Sched) (i : Input) (ht : i.types = [ordered, item]) : ∀ n path,
    processInterface recursive s n path [Demo.fld [] (.index (.ident g!"Ordered") (.ident g!"Item"))] i = .diverge := by
  intro n
  induction n using Nat.strongRecOn generalizing i with
  | _ n ih =>
    have ident : ∀ m, m ≤ n → ∀ path (i : Input), i.types = [ordered, item] →
        processIdent recursive s m path g!"Item" i false = .diverge := by
      intro m hm path i ht
      match m with
      | 0 => rw [processIdent]
      | m + 1 =>
        rw [processIdent, ht]
        have h1 : findEmbedded [ordered, item] g!"Item" false = .ok (some (item,
          [Demo.fld [] (.index (.ident g!"Ordered") (.ident g!"Item"))])) := rfl
        have h2 : ∀ types, buildGenericTypesFromSpec item types i.pref = .ok [] := fun _ => rfl
        simp only [h1, Res.ok_bind, h2]
        exact ih m (by omega) { i with types := [ordered, item], genericTypes := [] } rfl _
    have get : ∀ m, m ≤ n → ∀ path (i : Input), i.types = [ordered, item] →
        getEmbeddedMethods recursive s m path (.ident g!"Item") i false = .diverge := by
      intro m hm path i ht
      match m with
      | 0 => rw [getEmbeddedMethods]
      | m + 1 =>
        rw [getEmbeddedMethods]
        have hp : ∃ t, printType (i.sigEnv recursive).print (.ident g!"Item") = .ok t := by
          simp only [Input.sigEnv, ht, printType, printIdent]
          have hl : recursive.uni.looksUnexported g!"Item" = some false := rfl
          simp only [hl]
          split
          · split
            · exact ⟨_, rfl⟩
            · exact ⟨_, rfl⟩
          · exact ⟨_, rfl⟩
        obtain ⟨t, hp⟩ := hp
        rw [hp, Res.ok_bind]
        simp only
        rw [ident m (by omega) _ i ht]
        rfl
    have emb : ∀ m, m ≤ n → ∀ path (i : Input), i.types = [ordered, item] →
        processEmbedded recursive s m path (.ident g!"Item") i false = .diverge := by
      intro m hm path i ht
      match m with
      | 0 => rw [processEmbedded]
      | m + 1 =>
        rw [processEmbedded.eq_def]
        exact get m (by omega) _ _ ht
    have args : ∀ m, m ≤ n → ∀ path (i : Input), i.types = [ordered, item] →
        processArgs recursive s m path [.ident g!"Item"] i [] = .diverge := by
      intro m hm path i ht
      match m with
      | 0 => rw [processArgs]
      | m + 1 => rw [processArgs, emb m (by omega) _ i ht]; rfl
    have emb' : ∀ m, m ≤ n → ∀ path (i : Input), i.types = [ordered, item] →
        processEmbedded recursive s m path (.index (.ident g!"Ordered") (.ident g!"Item")) i true = .diverge := by
      intro m hm path i ht
      match m with
      | 0 => rw [processEmbedded]
      | m + 1 => rw [processEmbedded, args m (by omega) _ i ht]; rfl
    intro path
    match n with
    | 0 => rw [processInterface]
    | 1 => rw [processInterface, processFields]
    | n + 2 =>
      rw [processInterface, processFields.eq_def]
      simp only [Demo.fld, Field.type]
      rw [emb' n (by omega) _ i ht]
      rfl

theorem recursive_newGenerator (n : Nat) {o : Options} (hi : o.interfaceName = g!"Item") (h1 : loadSource recursive o = .ok 0)
    (h2 : ∃ d, loadDestinationPackage recursive (dstPackagePath recursive o.outputFile) = .ok d) :
    newGenerator recursive Demo.inOrder n o = .diverge := by
  obtain ⟨d, h2⟩ := h2
  simp only [newGenerator]
  have h3 : recursive.files 0 = .ok [Demo.file [] [ordered, item]] := rfl
  have h4 : ∀ pref, findTarget recursive Demo.inOrder n [] 0 pref [Demo.file [] [ordered, item]]
      g!"Item" [] = .diverge := by
    intro pref
    match n with
    | 0 => rw [findTarget]
    | 1 => rfl
    | n + 2 =>
    rw [findTarget]
    have hsel : (iterateFiles g!"Item" (Demo.inOrder.files [] [Demo.file [] [ordered, item]])) =
        ⟨some (item, Demo.file [] [ordered, item]), [ordered, item]⟩ := rfl
    simp only [hsel]
    have hb : ∀ types, buildGenericTypesFromSpec item types pref = .ok [] := fun _ => rfl
    rw [hb, Res.ok_bind, findMethods]
    show (processInterface recursive Demo.inOrder n _ _ _ >>= _) = _
    rw [recursive_diverges _ _ rfl]
    rfl
  rw [h1, Res.ok_bind, h2, Res.ok_bind, h3, Res.ok_bind, hi]
  show (findTarget recursive Demo.inOrder n [] 0 _ [Demo.file [] [ordered, item]] g!"Item" [] >>= _) = _
  rw [h4]
  rfl

theorem recursive_acyclicImports : AcyclicImports recursive := by
  refine ⟨fun p => ⟨_, ?_⟩⟩
  rintro q ⟨path, h⟩
  rw [recursive, Demo.solo_imports] at h
  cases h

theorem recursive_returns : ExternalsReturn recursive := ⟨by
    intro p
    match p with
    | 0 => intro h; cases h
    | n + 1 => simp [recursive, Demo.solo, Demo.world], by
    intro path
    simp only [recursive, Demo.solo, Demo.world]
    split <;> simp⟩

theorem recursive_acyclicTypes : AcyclicTypes recursive EmbedsName := by
  refine acyclic_of_rank (fun n => if n = g!"Item" then 1 else 0) ?_
  rintro p ts' ts ⟨f', hf', hd'⟩ ⟨f, hf, hd⟩ hm
  rw [recursive, Demo.solo_files] at hf hf'
  obtain ⟨rfl, rfl⟩ := hf
  obtain ⟨_, rfl⟩ := hf'
  rw [Demo.declaredIn_file] at hd hd'
  simp only [List.mem_cons, List.not_mem_nil, or_false] at hd hd'
  have key : ts'.name = g!"Ordered" ∧ ts = item := by
    rcases hd with rfl | rfl
    · simp only [ordered] at hm
      cases hm with
      | elem h1 h2 =>
        simp only [List.mem_cons, List.not_mem_nil, or_false] at h1
        subst h1
        cases h2
    · simp only [item, Demo.iface] at hm
      cases hm with
      | elem h1 h2 =>
        simp only [List.mem_cons, List.not_mem_nil, or_false] at h1
        subst h1
        generalize he : (Demo.fld [] (.index (.ident g!"Ordered") (.ident g!"Item"))).type = e at h2
        cases h2 with
        | index h3 =>
          simp only [Demo.fld, Field.type, Expr.index.injEq] at he
          rw [← he.1] at h3
          generalize he' : (Expr.ident g!"Ordered") = e' at h3
          cases h3 <;> simp at he'
          exact ⟨he'.symm, rfl⟩
        | _ => simp [Demo.fld, Field.type] at he
  rw [key.1, key.2]
  decide

/-- The full claim is false: gowrap recurses without end on an interface that occurs in a type argument of an
interface it embeds. -/
theorem C25_full_false : ¬ C25_full := by
  intro h
  obtain ⟨N, r, hr, hN⟩ := h recursive Demo.inOrder (Demo.local_ g!"Item") Demo.inOrder_fair recursive_returns
    (Demo.solo_plain _) (Demo.solo_loads _) recursive_acyclicImports recursive_acyclicTypes
  exact hr ((hN N (Nat.le_refl _)).symm.trans (recursive_newGenerator N rfl rfl ⟨_, rfl⟩))

end Gowrap.Props
