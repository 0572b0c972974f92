import Verif.Spec.Local
import Verif.Proofs.Regen
/-!
# Only the packages that the source package depends on matter
-/

namespace Gowrap

open Gowrap.Spec

theorem around_step {w : World} {src p q : PkgId} (h : Around w src p) (hd : DependsOn w p q) : Around w src q := by
  rcases h with rfl | h
  · exact .inr hd
  · exact .inr (.trans h hd)

/-- An input that comes from the package `src` or one it depends on. -/
structure Inside (w : World) (src : PkgId) (i : Input) : Prop where
  around : Around w src i.cur
  imports : ∃ g, FileOf w i.cur g ∧ i.imports = g.imports

theorem Inside.generics {w : World} {src : PkgId} {i : Input} (h : Inside w src i) (gts : List GType)
    (gps : List GParam) : Inside w src { i with genericTypes := gts, genericParams := gps } := ⟨h.around, h.imports⟩

/-- Equal results in both worlds, at one recursion bound. -/
structure LocalAt (w w' : World) (src : PkgId) (s : Sched) (n : Nat) : Prop where
  target : ∀ path cur pref files name gps, Around w src cur → w.files cur = .ok files →
    findTarget w' s n path cur pref files name gps = findTarget w s n path cur pref files name gps
  methods : ∀ path ts i, Inside w src i → findMethods w' s n path ts i = findMethods w s n path ts i
  get : ∀ path sel lp, w'.load lp = w.load lp → (∀ p, w.load lp = .ok p → Around w src p) →
    getMethods w' s n path sel lp = getMethods w s n path sel lp
  iface : ∀ path ms i, Inside w src i → processInterface w' s n path ms i = processInterface w s n path ms i
  fields : ∀ path ms i acc, Inside w src i →
    processFields w' s n path ms i acc = processFields w s n path ms i acc
  embedded : ∀ path e i b, Inside w src i → processEmbedded w' s n path e i b = processEmbedded w s n path e i b
  args : ∀ path es i acc, Inside w src i → processArgs w' s n path es i acc = processArgs w s n path es i acc
  getEmbedded : ∀ path e i b, Inside w src i →
    getEmbeddedMethods w' s n path e i b = getEmbeddedMethods w s n path e i b
  selector : ∀ path x sel i, Inside w src i →
    processSelector w' s n path x sel i = processSelector w s n path x sel i
  ident : ∀ path name i b, Inside w src i → processIdent w' s n path name i b = processIdent w s n path name i b

theorem local_zero (w w' : World) (src : PkgId) (s : Sched) : LocalAt w w' src s 0 where
  target := by intros; simp [findTarget]
  methods := by intros; simp [findMethods]
  get := by intros; simp [getMethods]
  iface := by intros; simp [processInterface]
  fields := by intros; simp [processFields]
  embedded := by intros; simp [processEmbedded]
  args := by intros; simp [processArgs]
  getEmbedded := by intros; simp [getEmbeddedMethods]
  selector := by intros; simp [processSelector]
  ident := by intros; simp [processIdent]

theorem sigEnv_same {w w' : World} {src : PkgId} (h : SameAround w w' src) (i : Input) :
    i.sigEnv w' = i.sigEnv w := by
  simp only [Input.sigEnv, h.uni, h.raw]

theorem find_congr {α : Type} {p p' : α → Bool} : ∀ {l : List α}, (∀ x ∈ l, p x = p' x) → l.find? p = l.find? p'
  | [], _ => rfl
  | a :: l, h => by
    rw [List.find?_cons, List.find?_cons, h a (List.mem_cons_self ..),
      find_congr fun x hx => h x (List.mem_cons_of_mem _ hx)]

theorem local_succ {w w' : World} {src : PkgId} {s : Sched} (hs : s.Fair) (hw : SameAround w w' src) {n : Nat}
    (ih : LocalAt w w' src s n) : LocalAt w w' src s (n + 1) where
  target := by
    intro path cur pref files name gps hc hf
    simp only [findTarget]
    split
    · rfl
    · next ts g hsel =>
      refine bind_congr' rfl fun gts => bind_congr' (ih.methods _ _ _ ⟨hc, g, ⟨files, hf, ?_⟩, rfl⟩) fun r => rfl
      exact (hs.files path files).mem_iff.1 (iterateFiles_some hsel).1
  methods := by
    intro path ts i hi
    simp only [findMethods]
    split
    · exact ih.iface _ _ _ hi
    · split
      · next a _ =>
        obtain ⟨g, hg, him⟩ := hi.imports
        rcases findSourcePackage_mem _ i.imports with e | ⟨imp, hm, e⟩
        · refine ih.get _ _ _ (by rw [e]; exact hw.loadEmpty) fun p hp => ?_
          exact around_step hi.around (.loadEmpty hg (e ▸ hp))
        · refine ih.get _ _ _ (by rw [e]; exact hw.load _ g imp hi.around hg (him ▸ hm)) fun p hp => ?_
          exact around_step hi.around (.load hg (him ▸ hm) (e ▸ hp))
      · rfl
    · split
      · exact ih.methods _ _ _ hi
      · rfl
    · rfl
  get := by
    intro path sel lp hl ha
    simp only [getMethods, hl]
    cases hp : w.load lp with
    | ok p =>
      simp only [Res.ok_bind]
      have hap := ha p hp
      rw [hw.files p hap, hw.pkg p hap]
      cases hf : w.files p with
      | ok files =>
        simp only [Res.ok_bind]
        exact bind_congr' (ih.target _ _ _ _ _ _ hap hf) fun out => rfl
      | err e => rfl
      | panic => rfl
      | diverge => rfl
    | err e => rfl
    | panic => rfl
    | diverge => rfl
  iface := by
    intro path ms i hi
    simp only [processInterface]
    exact ih.fields _ _ _ _ hi
  fields := by
    intro path ms i acc hi
    cases ms with
    | nil => simp only [processFields]
    | cons fd rest =>
      simp only [processFields, sigEnv_same hw]
      split
      · split
        · rfl
        · exact bind_congr' rfl fun m => ih.fields _ _ _ _ hi
      · exact bind_congr' (ih.embedded _ _ _ _ hi) fun x => ih.fields _ _ _ _ hi
  embedded := by
    intro path e i b hi
    simp only [processEmbedded]
    split
    · exact bind_congr' (ih.args _ _ _ _ hi) fun gps =>
        bind_congr' (ih.getEmbedded _ _ _ _ (hi.generics _ _)) fun x => rfl
    · exact bind_congr' (ih.args _ _ _ _ hi) fun gps =>
        bind_congr' (ih.getEmbedded _ _ _ _ (hi.generics _ _)) fun x => rfl
    · exact ih.getEmbedded _ _ _ _ (hi.generics _ _)
  args := by
    intro path es i acc hi
    cases es with
    | nil => simp only [processArgs]
    | cons e es =>
      simp only [processArgs]
      exact bind_congr' (ih.embedded _ _ _ _ hi) fun x => ih.args _ _ _ _ hi
  getEmbedded := by
    intro path e i b hi
    simp only [getEmbeddedMethods, sigEnv_same hw]
    refine bind_congr' rfl fun name => ?_
    split
    · exact bind_congr' (ih.selector _ _ _ _ hi) fun x => rfl
    · exact bind_congr' (ih.ident _ _ _ _ hi) fun x => rfl
    · rfl
  selector := by
    intro path x sel i hi
    simp only [processSelector, hw.pkg _ hi.around]
    split
    · next a =>
      have hfi : findImportPathForName w' a i.imports (s.imports path (w.pkg i.cur).imports) =
          findImportPathForName w a i.imports (s.imports path (w.pkg i.cur).imports) := by
        unfold findImportPathForName
        have : (s.imports path (w.pkg i.cur).imports).find? (fun p => (w'.pkg p.2).name = a) =
            (s.imports path (w.pkg i.cur).imports).find? (fun p => (w.pkg p.2).name = a) := by
          refine find_congr fun x hx => ?_
          have hm := (hs.imports path _).mem_iff.1 hx
          rw [hw.pkg x.2 (around_step hi.around (.imports (path := x.1) hm))]
        rw [this]
      refine bind_congr' hfi fun ip => ?_
      split
      · rfl
      · next p hl =>
        have hap := around_step hi.around (.imports (lookup_mem hl))
        rw [hw.files p hap, hw.pkg p hap]
        cases hf : w.files p with
        | ok files =>
          simp only [Res.ok_bind]
          exact bind_congr' (ih.target _ _ _ _ _ _ hap hf) fun out => rfl
        | err e => rfl
        | panic => rfl
        | diverge => rfl
    · rfl
  ident := by
    intro path name i b hi
    simp only [processIdent]
    refine bind_congr' rfl fun fe => ?_
    split
    · rfl
    · exact bind_congr' rfl fun gts => ih.iface _ _ _ (hi.generics _ _)

theorem local_all {w w' : World} {src : PkgId} {s : Sched} (hs : s.Fair) (hw : SameAround w w' src) :
    ∀ n, LocalAt w w' src s n
  | 0 => local_zero w w' src s
  | n + 1 => local_succ hs hw (local_all hs hw n)

end Gowrap
