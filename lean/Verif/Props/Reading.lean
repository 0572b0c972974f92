import Verif.Proofs.ReaderDecl
import Verif.Proofs.ReadingReturns
import Verif.Props.SourceFile
import Verif.Spec.Command
import Verif.Props.EndToEndDemo
import Verif.Props.Terminating
/-!
# C82: the generated text has one reading
-/

namespace Gowrap.Props

open Gowrap Spec Tmpl Go Reader

/-- Tokens are read in one way. -/
theorem reads_unique {l : List Go.Tok} {ds ds' : List Go.Decl} (h : Reads l ds) (h' : Reads l ds') : ds = ds' := Ev.unique h h'

/-- **C82** The tokens of derivations of the grammar are read as these derivations. -/
theorem C82_reads {S : Sources} (hs : SourcesRead S) {ds : List Go.Decl} (h : Grammatical S ds) : Reads (putDecls ds []) (normalDecls ds) :=
  reads_decls hs h.1

/-- **C82** Derivations of the grammar with the same tokens are the same, but for what the text does not show; whatever the types of
the source are. -/
theorem C82_unique {S S' : Sources} (hs : SourcesRead S) (hs' : SourcesRead S') {ds ds' : List Go.Decl} (h : Grammatical S ds) (h' : Grammatical S' ds')
    (e : putDecls ds [] = putDecls ds' []) : normalDecls ds = normalDecls ds' :=
  reads_unique (C82_reads hs h) (e ▸ C82_reads hs' h')

theorem matched_skips {l : List Go.Tok} (h : Matched l) : Skips l := by
  induction h with
  | nil => exact .nil
  | word _ h => exact .word _ h
  | str _ h =>
    intro a d k
    show scan a (d + 1) (_ :: (_ ++ k)) = _
    rw [scan, h]
    nofun
  | num _ h =>
    intro a d k
    show scan a (d + 1) (_ :: (_ ++ k)) = _
    rw [scan, h]
    nofun
  | @op o l ho _ h =>
    simp only [List.mem_cons, List.not_mem_nil, or_false, not_or] at ho
    exact .op (by simp [Reader.isOpen, ho]) (by simp [Reader.isClose, ho]) h
  | round _ _ h1 h2 => exact .bracket rfl rfl rfl h1 h2
  | square _ _ h1 h2 => exact .bracket rfl rfl rfl h1 h2
  | curly _ _ h1 h2 => exact .bracket rfl rfl rfl h1 h2

/-- The types of a parsed file are read. -/
theorem goTypes_read (raw : Gowrap.Expr → Str) : SourcesRead (goTypes (copiedOf raw)) := by
  have ht : ∀ l, IsType (copiedOf raw) l → TypeToks l := fun l h => by
    refine IsType.toks ?_ ?_ h
    · rintro l ⟨_, _, _, p, hp, rfl | rfl⟩
      · exact .iface (matched_skips hp)
      · exact .paren (matched_skips hp)
    · rintro l ⟨_, hl, _⟩
      exact matched_skips hl
  exact ⟨ht, fun l ⟨r, e, h⟩ => ⟨r, e, ht r h⟩⟩

/-- **C82** The text that is generated for an interface that `NewGenerator` accepts is read, and it has no other reading: whatever
declarations of the grammar of Go it consists of, they are those that are read. -/
theorem C82_generated {w : World} {s : Sched} (hs : s.Fair) (hw : SourceOk w) {fuel : Nat} {o : Options} (ho : OptionsOk o)
    {g : Generator} (h : newGenerator w s fuel o = .ok g) {vars : Str → Option VarValue} (hv : GoVars (g.inputs o vars))
    (b : Builtin) (hb : b ∈ builtins) :
    ∃ t l rs, render w.uni b.text (g.inputs o vars) = some t ∧ Go.tokens t = some l ∧ Reads l rs ∧
      (∃ ds, ConsistsOfGo w t ds) ∧ ∀ ds, ConsistsOfGo w t ds → normalDecls ds = rs := by
  obtain ⟨t, ds, h1, h2, _⟩ := C69_source_to_declarations hs hw ho h hv b hb
  refine ⟨t, _, normalDecls ds, h1, h2.1, C82_reads (goTypes_read w.raw) h2.2, ⟨ds, h2⟩, fun ds' h' => ?_⟩
  exact C82_unique (goTypes_read w.raw) (goTypes_read w.raw) h'.2 h2.2 (Option.some.inj (h'.1.symm.trans h2.1))

/-- Where the parts of a list with a mark end. -/
theorem split_unique {α : Type} {x : α} : ∀ {a a' b b' : List α}, x ∉ a → x ∉ a' → a ++ x :: b = a' ++ x :: b' → a = a' ∧ b = b'
  | [], [], _, _, _, _, h => ⟨rfl, (List.cons.inj h).2⟩
  | [], y :: a', _, _, _, h', h => absurd ((List.cons.inj h).1 ▸ List.mem_cons_self) h'
  | y :: a, [], _, _, h', _, h => absurd ((List.cons.inj h).1 ▸ List.mem_cons_self) h'
  | y :: a, z :: a', _, _, h1, h2, h => by
    obtain ⟨rfl, e⟩ := List.cons.inj h
    obtain ⟨rfl, rfl⟩ := split_unique (fun h => h1 (List.mem_cons_of_mem _ h)) (fun h => h2 (List.mem_cons_of_mem _ h)) e
    exact ⟨rfl, rfl⟩

/-- A file has one reading. -/
theorem C82_file_unique {l : List Go.Tok} {p p' : Str} {is is' : List Go.Tok} {ds ds' : List Go.Decl} (h : ReadsFile l p is ds) (h' : ReadsFile l p' is' ds') :
    p = p' ∧ is = is' ∧ ds = ds' := by
  obtain ⟨r, rfl, h1, h2⟩ := h
  obtain ⟨r', e, h3, h4⟩ := h'
  simp only [List.cons_append, List.nil_append, List.append_assoc, List.cons.injEq, Tok.word.injEq, true_and] at e
  obtain ⟨rfl, e⟩ := e
  obtain ⟨rfl, e'⟩ := split_unique h1 h3 e
  cases e'
  exact ⟨rfl, rfl, reads_unique h2 h4⟩

/-- **C82** A source file is read, with its package clause and its imports. -/
theorem C82_file {S : Sources} (hs : SourcesRead S) (package : Str) (imports : List ImportSpec) {ds : List Go.Decl} (h : Grammatical S ds) :
    ReadsFile (fileToks package imports ds) package (imports.flatMap fun im => importToks im ++ [.op g!";"]) (normalDecls ds) := by
  refine ⟨putDecls ds [], rfl, ?_, C82_reads hs h⟩
  intro hm
  obtain ⟨im, _, hm⟩ := List.mem_flatMap.mp hm
  unfold importToks at hm
  rcases List.mem_append.mp hm with hm | hm
  · rcases List.mem_append.mp hm with hm | hm
    · split at hm
      · exact nomatch hm
      · split at hm <;> simp at hm
    · simp at hm
  · simp at hm

/-- **C82** What `gen` writes: the file is read, and the declarations that are read are the normal form of declarations that compile and of
which the claim `P` (for example that of C80) holds; no other derivation of the grammar has the tokens of the file. -/
theorem C82_command {w : World} {g : Generator} {o : GenOptions} {bl : Builtin × Locals} {P : List Go.Decl → Prop} {text : Str}
    (h : DecoratorFile w g o bl P text) :
    ∃ l is rs, Go.tokens text = some l ∧ ReadsFile l g.dstName is rs ∧
      (∃ ds, normalDecls ds = rs ∧ Compiles (g.inputs (o.forGenerator g.srcPackage) o.vars) bl.1 bl.2 ds ∧ P ds) ∧
      ∀ {S : Sources}, SourcesRead S → ∀ imports ds, Grammatical S ds → l = fileToks g.dstName imports ds → normalDecls ds = rs := by
  obtain ⟨f, ts, ds, _, _, _, h1, h2, h3, h4⟩ := h
  have hr := C82_file (goTypes_read w.raw) g.dstName (neededImports w (o.forGenerator g.srcPackage) g.srcPackage g.dstPath f) h2
  refine ⟨_, _, normalDecls ds, h1, hr, ⟨ds, rfl, h3, h4⟩, fun {S} hS imports ds' h' e => ?_⟩
  have hr' := C82_file hS g.dstName imports h'
  rw [← e] at hr'
  exact (C82_file_unique hr' hr).2.2

/-! ## C67: no reading returns -/

theorem closer_read : SourcesRead (sourceTypes closerInputs) := by
  constructor
  · rintro l (rfl | ⟨e, he, p, hp, _, rfl⟩)
    · rw [show typeToks closerInputs.type = [.word g!"store", .op g!".", .word g!"Store"] by decide +kernel]
      exact .of_qual (Demo.goName_of (by decide +kernel))
    · cases List.mem_singleton.mp he
      cases List.mem_singleton.mp hp
      rw [show typeToks _ = [.word g!"error"] by decide +kernel]
      exact .of_name (Demo.goName_of (by decide +kernel))
  · rintro l ⟨e, he, p, hp, _, rfl⟩
    cases List.mem_singleton.mp he
    exact nomatch hp

/-- The claim C67 fails: with templates/fallback and an interface with the method `Close() error` the text has one reading, and there a
`return` is missing. -/
theorem C67_full_false : ¬ C67_full := by
  intro hf
  obtain ⟨s, ds, h1, h2, h3⟩ := hf Uni.ascii closerInputs closer_good ⟨Text.fallback, g!"WithFallback", .all, false, [g!"implementations", g!"interval"]⟩
    (by simp [builtins])
  obtain ⟨s', ds', k1, k2, r, t, ps, rs, body, k3, k4⟩ :=
    C67_fallback_missing_return Uni.ascii closerInputs closer_good (g!"Close", closeMethod) List.mem_cons_self rfl rfl
  cases Option.some.inj (h1.symm.trans k1)
  have e := C82_unique closer_read closer_read h2.2 k2.2 (Option.some.inj (h2.1.symm.trans k2.1))
  exact k4 ((returns_read ds').mp (e ▸ (returns_read ds).mpr h3) _ k3)

end Gowrap.Props
