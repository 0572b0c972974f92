import Verif.Props.Reading
import Verif.Props.Typing
import Verif.Props.Apart
import Verif.Proofs.ReadingApart
/-!
# Claims that fail, whatever derivation of the generated text one chooses

The claims C72, C75 and C79 ask for declarations of which the text consists and that obey the rules.  By C82 the text has one reading, so
that the declarations of the counterexamples are the only ones.
-/

namespace Gowrap.Props

open Gowrap Tmpl Go Spec Reader

set_option maxRecDepth 100000

theorem trace_types (x r : Str) {d : Inputs} (hd : d.methods = (traceInputs x r).methods) {p n : Str} (hp : GoName p)
    (ht : typeToks d.type = [.word p, .op g!".", .word n]) : SourcesRead (sourceTypes d) := by
  have hi : TypeToks (typeToks g!"int") := by
    rw [show typeToks g!"int" = [.word g!"int"] by decide +kernel]
    exact .of_name (Demo.goName_of (by decide +kernel))
  have ht' : ∀ e ∈ d.methods, ∀ p ∈ e.2.params ++ e.2.results, p.variadic = false ∧ TypeToks (typeToks p.type) := by
    intro e he p hp
    rw [hd] at he
    cases List.mem_singleton.mp he
    simp only [traceMethod, List.cons_append, List.nil_append, List.mem_cons, List.not_mem_nil, or_false] at hp
    rcases hp with rfl | rfl | rfl | rfl
    · rw [show typeToks _ = [.word g!"context", .op g!".", .word g!"Context"] by decide +kernel]
      exact ⟨rfl, .of_qual (Demo.goName_of (by decide +kernel))⟩
    · exact ⟨rfl, hi⟩
    · exact ⟨rfl, hi⟩
    · rw [show typeToks _ = [.word g!"error"] by decide +kernel]
      exact ⟨rfl, .of_name (Demo.goName_of (by decide +kernel))⟩
  constructor
  · rintro l (rfl | ⟨e, he, p, hp, _, rfl⟩)
    · rw [ht]
      exact .of_qual hp
    · exact (ht' e he p hp).2
  · rintro l ⟨e, he, p, hp, hv, rfl⟩
    exact absurd ((ht' e he p (List.mem_append_left _ hp)).1.symm.trans hv) nofun

theorem trace_read (x r : Str) : SourcesRead (sourceTypes (traceInputs x r)) :=
  trace_types x r rfl (Demo.goName_of (by decide +kernel)) (show typeToks storeInputs.type = [.word g!"store", .op g!".", .word g!"Store"] by decide +kernel)

/-- What is read of a method comes from a method with the same names. -/
theorem method_of_normal {ds ds' : List Go.Decl} (e : normalDecls ds = normalDecls ds') {r : Str} {t : Go.Ty} {x : Str} {ps rs : List Group} {b : List Stmt}
    (h : Go.Decl.method r t x ps rs b ∈ flatDecls ds') :
    ∃ ps' rs' b', Go.Decl.method r t x ps' rs' b' ∈ flatDecls ds ∧ boundNames ps' = boundNames ps ∧ boundNames rs' = boundNames rs ∧
      normalStmts b' = normalStmts b := by
  have hm : (Go.Decl.method r t x ps rs b).normal ∈ normalDecls ds := by
    rw [e]
    exact List.mem_map_of_mem h
  obtain ⟨y, hy, he⟩ := List.mem_map.mp hm
  cases y <;> simp only [Go.Decl.normal, Go.Decl.method.injEq, reduceCtorEq] at he
  obtain ⟨rfl, rfl, rfl, h1, h2, h3⟩ := he
  refine ⟨_, _, _, hy, ?_, ?_, h3⟩
  · rw [← boundNames_normal, h1, boundNames_normal]
  · rw [← boundNames_normal, h2, boundNames_normal]

/-- The claim C72 fails: with a parameter `_d` every reading of the file has a method that declares the name twice. -/
theorem C72_full_false : ¬ C72_full := by
  intro hf
  have hg : GoInputs Uni.ascii (traceInputs g!"_d" g!"n") := trace_good (by decide +kernel) (by decide +kernel) (by decide)
  have hb : ((builtins.zip locals)[0]'(by decide)) ∈ builtins.zip locals := List.getElem_mem _
  obtain ⟨s, ds, h1, h2, h3⟩ := hf Uni.ascii _ hg (trace_named (by decide) (by decide)) _ hb
  obtain ⟨⟨s', k1, k2⟩, k3⟩ := shape_log hg
  cases Option.some.inj (h1.symm.trans k1)
  have e := C82_unique (trace_read _ _) (trace_read _ _) h2.2 k2.2 (Option.some.inj (h2.1.symm.trans k2.1))
  obtain ⟨ps, rs, b, hm, hp, hr, _⟩ := method_of_normal e (r := g!"_d") (x := g!"Trace") (by
    rw [k3]
    refine List.mem_append_right _ (List.mem_append_left _ ?_)
    exact List.mem_map.mpr ⟨traceMethod g!"_d" g!"n", List.mem_filter.mpr ⟨mem_sorted.mpr ⟨_, List.mem_cons_self, rfl⟩, rfl⟩, rfl⟩)
  have hd := (h3.1 _ hm).2.2.2.1
  rw [hp, hr, boundNames_params, boundNames_params] at hd
  revert hd
  unfold Go.Distinct
  decide +kernel

/-! ## C75 -/

/-- `gowrap gen -p example.com/store -i config` -/
def timedInputs : Inputs := { traceInputs g!"x" g!"n" with name := g!"config", type := g!"store.config" }

theorem timed_good : GoInputs Uni.ascii timedInputs :=
  { trace_good (x := g!"x") (r := g!"n") (by decide +kernel) (by decide +kernel) (by decide) with
    name := (by decide +kernel : GoName g!"config")
    type := typeSource_of [.word g!"store", .op g!"."] (.word g!"config") _ _ ⟨.inl ⟨_, rfl⟩, by decide +kernel⟩
    typeName := ⟨_, _, rfl, by decide⟩
    typeQuotable := by unfold InQuotes; decide
    vars := renamed_vars _ rfl }

theorem timed_read : SourcesRead (sourceTypes timedInputs) :=
  trace_types g!"x" g!"n" rfl (Demo.goName_of (by decide +kernel))
    (show typeToks timedInputs.type = [.word g!"store", .op g!".", .word g!"config"] by decide +kernel)

/-- The type is known by its tokens. -/
theorem fieldName_config : ∀ t : Go.Ty, t.put [] = [.word g!"store", .op g!".", .word g!"config"] → t.fieldName = g!"config"
  | .name x, h => by simp [Ty.put] at h
  | .qual p x, h => by
    simp only [Ty.put, List.cons.injEq, Tok.word.injEq] at h
    exact h.2.2.1
  | .toks l, h => by
    simp only [Ty.put, List.append_nil] at h
    rw [h]
    decide +kernel
  | .part t, h => by
    simp only [Ty.put, List.append_nil] at h
    exact fieldName_config t h
  | .ptr t, h | .slice t, h | .map _ _, h | .chan _, h | .dots _, h | .func _ _, h | .iface _, h | .struct _, h => by
    simp [Ty.put] at h

/-- The claim C75 fails: templates/timeout and an interface `config` give a struct type with two fields `config`. -/
theorem C75_full_false : ¬ C75_full := by
  intro hf
  have hb : ((builtins.zip locals)[11]'(by decide)) ∈ builtins.zip locals := List.getElem_mem _
  obtain ⟨s, ds, h1, h2, h3⟩ := hf Uni.ascii _ timed_good (trace_named (x := g!"x") (r := g!"n") (by decide) (by decide)) _ hb
  obtain ⟨⟨s', k1, k2⟩, k3⟩ := shape_timeout timed_good
  cases Option.some.inj (h1.symm.trans k1)
  have e := C82_unique timed_read timed_read h2.2 k2.2 (Option.some.inj (h2.1.symm.trans k2.1))
  have hm : (Go.Decl.struct (tmTimeout.names Uni.ascii timedInputs).dec (fieldsTimeout timedInputs (tmTimeout.names Uni.ascii timedInputs))).normal ∈
      normalDecls ds := by
    rw [e]
    refine List.mem_map_of_mem ?_
    rw [k3]
    refine List.mem_append_left _ ?_
    simp [beforeTimeout, flatDecls, Decl.flat]
  obtain ⟨y, hy, he⟩ := List.mem_map.mp hm
  cases y <;> simp only [Go.Decl.normal, Go.Decl.struct.injEq, reduceCtorEq] at he
  have hn := (h3 _ hy).2
  have he := he.2
  simp only [fieldsTimeout, flatFields, FieldDecl.flat, List.append_nil, List.cons_append, List.nil_append, List.map_cons, List.map_nil,
    List.map_eq_cons_iff, List.map_eq_nil_iff] at he
  obtain ⟨f1, l1, hl, e1, f2, l2, rfl, e2, _⟩ := he
  rw [hl] at hn
  cases f1 <;> simp only [FieldDecl.normal, FieldDecl.embedded.injEq, reduceCtorEq] at e1
  cases f2 <;> simp only [FieldDecl.normal, FieldDecl.named.injEq, reduceCtorEq] at e2
  have ht := fieldName_config _ (Go.Ty.toks.inj e1)
  simp [FieldDecl.vars, ht, e2.1] at hn

/-! ## C79 -/

/-- `fallback_counter` for what is read. -/
theorem counter_read {m : Method} {p : Param} (hp : p ∈ m.params) (hx : p.name = g!"_i") (type : Str) (rs later : List Str) :
    ¬ apartIn rs later (normalStmts (fallbackStmts type m)) := by
  have hu : usedByAny g!"_i" (m.params.map argExpr) = true := by
    generalize m.params = l at hp
    induction l with
    | nil => exact absurd hp List.not_mem_nil
    | cons q ps ih =>
      rw [List.map_cons, usedByAny]
      rcases List.mem_cons.mp hp with rfl | hp
      · have : (argExpr p).uses g!"_i" = true := by
          unfold argExpr
          split <;> simp [Expr.uses, hx]
        rw [this]
        rfl
      · rw [ih hp]
        simp
  have hc : usedIn g!"_i" false (normalStmts (childStmts m)) = true := by
    rw [usedIn_normal]
    unfold childStmts implStmts
    cases m.hasResults <;> used [hu]
  intro ha
  unfold fallbackStmts at ha
  rw [normalStmts_append] at ha
  have ha := apart_drop _ ha
  simp only [normalStmts, Stmt.normal, Expr.normal, apartIn, Stmt.Apart] at ha
  have h1 := ha.1.2.1
  simp only [launcherStmts, normalStmts, Stmt.normal, Expr.normal, apartIn, Stmt.Apart] at h1
  have h2 := h1.1.2.2.2
  simp only [launchBody, normalStmts, Stmt.normal, Expr.normal, apartIn, Stmt.Apart] at h2
  have h3 := h2.1.1.2 g!"_i" (by sets []) (by simp [boundNames, Group.normal, Group.names, Results.normal, Results.names])
  rw [hc] at h3
  exact nomatch h3

/-- The claim C79 fails: with templates/fallback and a parameter `_i` goroutines use a variable that is incremented, in every reading of the
file. -/
theorem C79_full_false : ¬ C79_full := by
  intro hf
  have hg : GoInputs Uni.ascii (traceInputs g!"_i" g!"n") := trace_good (by decide +kernel) (by decide +kernel) (by decide)
  have hb : (builtins[17]'(by decide)) ∈ builtins := List.getElem_mem _
  obtain ⟨s, ds, h1, h2, h3, _⟩ := hf Uni.ascii _ hg (trace_named (by decide) (by decide)) _ hb
  obtain ⟨⟨s', k1, k2⟩, k3⟩ := shape_fallback hg
  cases Option.some.inj (h1.symm.trans k1)
  have e := C82_unique (trace_read _ _) (trace_read _ _) h2.2 k2.2 (Option.some.inj (h2.1.symm.trans k2.1))
  obtain ⟨ps, rs, b, hm, _, hr, hb⟩ := method_of_normal e (r := g!"_d") (x := g!"Trace") (by
    rw [k3]
    refine List.mem_append_right _ (List.mem_append_left _ ?_)
    exact List.mem_map.mpr ⟨traceMethod g!"_i" g!"n", List.mem_filter.mpr ⟨mem_sorted.mpr ⟨_, List.mem_cons_self, rfl⟩, rfl⟩, rfl⟩)
  have ha := Go.Decl.apart_normal _ (h3 _ hm)
  simp only [Go.Decl.normal, Go.Decl.Apart, hb] at ha
  exact counter_read (p := ⟨[], [], g!"_i", g!"int", false⟩) (by decide) rfl _ _ _ ha

end Gowrap.Props
