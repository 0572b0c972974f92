import Verif.Proofs.Text
import Verif.Proofs.TypesSafe
import Verif.Props.Signature
/-!
# Properties of the string renderings of a method (C08, C09)

The text is read back with the independent reader of `Spec/Text.lean`.
-/

namespace Gowrap.Props

open Gowrap Spec

/-- A method whose text can be read back: its names are names, its types have balanced brackets and no
comma or line break outside them, and the type of a variadic parameter is `...T`. -/
structure Readable (m : Method) : Prop where
  name : PlainName m.name
  names : ∀ p ∈ m.params ++ m.results, PlainName p.name
  types : ∀ p ∈ m.params ++ m.results, Closed p.type
  variadic : ∀ p ∈ m.params, p.variadic = true → ∃ t, p.type = g!"..." ++ t

theorem blank_closed {a b : Str} (ha : PlainName a) (hb : Closed b) (mid : Str) (hm : Closed mid) :
    Closed (a ++ mid ++ b) := ((plain_closed ha).append hm).append hb

theorem pass_closed {p : Param} (h : PlainName p.name) : Closed p.pass := by
  unfold Param.pass
  split
  · exact (plain_closed h).append (by decide)
  · exact plain_closed h

theorem pass_starts {p : Param} (h : PlainName p.name) : Starts p.pass := by
  unfold Param.pass
  split
  · exact plain_starts h
  · simpa using plain_starts (rest := []) h

theorem readArg_pass {p : Param} (h : PlainName p.name) : readArg p.pass = (p.name, p.variadic) := by
  unfold Param.pass readArg
  split
  · rename_i hv
    rw [hv]
    have e : (p.name ++ g!"...").length - 3 = p.name.length := by simp
    rw [e]
    simp
  · rename_i hv
    have hnv : p.variadic = false := by simpa using hv
    rw [hnv, if_neg]
    intro he
    have hmem : '.' ∈ p.name := List.mem_of_mem_drop (i := p.name.length - 3) (by rw [he]; simp)
    exact (plain_chars h _ hmem).2.2.2.2.2.1 rfl

theorem comma_items (xs : List Str) (hx : ∀ x ∈ xs, Closed x) (hs : ∀ x ∈ xs, Starts x) :
    items ',' (join g!", " xs) = xs :=
  items_join ',' g!" " (by decide) (by decide) (by decide) xs (fun x h => (hx x h).1) hs

theorem comma_group (xs : List Str) (hx : ∀ x ∈ xs, Closed x) (rest : Str) :
    group 0 [] (join g!", " xs ++ ')' :: rest) = some (join g!", " xs, rest) := by
  have := group_join g!", " (by decide) ')' (by decide) rest xs [] (fun x h => (hx x h).1)
  simpa using this

theorem paren_not_mem {s : Str} (h : PlainName s) : '(' ∉ s := fun hm => by
  have := (plain_chars h _ hm).1
  simp [isOpen] at this

theorem readVar_var {n t : Str} (h : PlainName n) : readVar (n ++ g!" " ++ t) = (n, t) := by
  unfold readVar
  rw [List.append_assoc]
  have : ' ' ∉ n := fun hm => (plain_chars h _ hm).2.2.2.2.1 rfl
  simp only [List.cons_append, List.nil_append]
  rw [splitAtChar_not_mem ' ' n t this]
  rfl

/-- What the generated call says: the callee and the arguments. -/
theorem C08_call (m : Method) (hn : PlainName m.name) (hp : ∀ p ∈ m.params, PlainName p.name) :
    readCall m.call = some (m.name, m.params.map fun p => (p.name, p.variadic)) := by
  unfold readCall Method.call
  rw [List.append_assoc, List.append_assoc]
  simp only [List.cons_append, List.nil_append]
  rw [splitAtChar_not_mem '(' _ _ (paren_not_mem hn)]
  have hc : ∀ x ∈ m.params.map Param.pass, Closed x := by
    intro x hx
    obtain ⟨p, hpm, rfl⟩ := List.mem_map.1 hx
    exact pass_closed (hp p hpm)
  have hs : ∀ x ∈ m.params.map Param.pass, Starts x := by
    intro x hx
    obtain ⟨p, hpm, rfl⟩ := List.mem_map.1 hx
    exact pass_starts (hp p hpm)
  simp only [comma_group _ hc []]
  rw [comma_items _ hc hs, List.map_map]
  congr 2
  apply List.map_congr_left
  intro p hpm
  exact readArg_pass (hp p hpm)

theorem var_items (ps : List Param) (hn : ∀ p ∈ ps, PlainName p.name) (ht : ∀ p ∈ ps, Closed p.type) :
    (∀ x ∈ ps.map (fun p => p.name ++ g!" " ++ p.type), Closed x) ∧
    (∀ x ∈ ps.map (fun p => p.name ++ g!" " ++ p.type), Starts x) ∧
    (ps.map (fun p => p.name ++ g!" " ++ p.type)).map readVar = ps.map fun p => (p.name, p.type) := by
  refine ⟨?_, ?_, ?_⟩
  · intro x hx
    obtain ⟨p, hp, rfl⟩ := List.mem_map.1 hx
    exact blank_closed (hn p hp) (ht p hp) g!" " (by decide)
  · intro x hx
    obtain ⟨p, hp, rfl⟩ := List.mem_map.1 hx
    rw [List.append_assoc]
    exact plain_starts (hn p hp)
  · rw [List.map_map]
    apply List.map_congr_left
    intro p hp
    exact readVar_var (hn p hp)

/-- What the declaration says: the name, and parameters and results with their types. -/
theorem C08_declaration (m : Method) (h : Readable m) :
    readDeclaration m.declaration = some (m.name, m.params.map (fun p => (p.name, p.type)),
      m.results.map fun r => (r.name, r.type)) ∧
    readSignature m.signature = some (m.params.map (fun p => (p.name, p.type)),
      m.results.map fun r => (r.name, r.type)) := by
  obtain ⟨c1, s1, v1⟩ := var_items m.params (fun p hp => h.names p (List.mem_append_left _ hp))
    (fun p hp => h.types p (List.mem_append_left _ hp))
  obtain ⟨c2, s2, v2⟩ := var_items m.results (fun p hp => h.names p (List.mem_append_right _ hp))
    (fun p hp => h.types p (List.mem_append_right _ hp))
  have hsig : readSignature m.signature = some (m.params.map (fun p => (p.name, p.type)),
      m.results.map fun r => (r.name, r.type)) := by
    have e : m.signature = '(' :: (join g!", " (m.params.map fun p => p.name ++ g!" " ++ p.type) ++
      ')' :: ' ' :: '(' :: (join g!", " (m.results.map fun r => r.name ++ g!" " ++ r.type) ++ g!")")) := by
      simp [Method.signature]
    rw [e]
    simp only [readSignature]
    simp only [comma_group _ c1, comma_group _ c2 []]
    rw [comma_items _ c1 s1, comma_items _ c2 s2, v1, v2]
  refine ⟨?_, hsig⟩
  unfold readDeclaration Method.declaration
  obtain ⟨rest, hr⟩ : ∃ rest, m.signature = '(' :: rest := ⟨_, by simp [Method.signature]; rfl⟩
  have : splitAtChar '(' (m.name ++ m.signature) = (m.name, m.signature) := by
    rw [hr]
    exact splitAtChar_not_mem '(' _ _ (paren_not_mem h.name)
  rw [this]
  simp [hsig]

/-- **C08** The argument list of `Call`, `Pass` and `ParamsSlice.Pass` is the list of declared
parameters in order, `...` after exactly the variadic ones; `Pass` returns the call's results exactly if
the method has results; `Declaration`, `Signature`, `ParamsSlice.String` list the same names in the same
order with their types; `ParamsNames` and `ResultsNames` list the names. -/
theorem C08_forwarding (m : Method) (h : Readable m) (pre : Str) :
    readCall m.call = some (m.name, m.params.map fun p => (p.name, p.variadic)) ∧
    (m.results ≠ [] → m.pass pre = g!"return " ++ (pre ++ m.call)) ∧
    (m.results = [] → m.pass pre = pre ++ m.call ++ g!"\nreturn") ∧
    (items ',' (paramsPass m.params)).map readArg = m.params.map (fun p => (p.name, p.variadic)) ∧
    readDeclaration m.declaration = some (m.name, m.params.map (fun p => (p.name, p.type)),
      m.results.map fun r => (r.name, r.type)) ∧
    readSignature m.signature = some (m.params.map (fun p => (p.name, p.type)),
      m.results.map fun r => (r.name, r.type)) ∧
    (items ',' (paramsString m.params)).map readVar = m.params.map (fun p => (p.name, p.type)) ∧
    items ',' m.paramsNames = m.params.map (·.name) ∧
    items ',' m.resultsNames = m.results.map (·.name) := by
  have hp : ∀ p ∈ m.params, PlainName p.name := fun p hp => h.names p (List.mem_append_left _ hp)
  have hr : ∀ p ∈ m.results, PlainName p.name := fun p hp => h.names p (List.mem_append_right _ hp)
  have hcn : ∀ ps : List Param, (∀ p ∈ ps, PlainName p.name) →
      items ',' (join g!", " (ps.map (·.name))) = ps.map (·.name) := by
    intro ps hps
    apply comma_items
    · intro x hx; obtain ⟨p, hp, rfl⟩ := List.mem_map.1 hx; exact plain_closed (hps p hp)
    · intro x hx; obtain ⟨p, hp, rfl⟩ := List.mem_map.1 hx
      simpa using plain_starts (rest := []) (hps p hp)
  obtain ⟨hd, hs⟩ := C08_declaration m h
  refine ⟨C08_call m h.name hp, ?_, ?_, ?_, hd, hs, ?_, hcn _ hp, hcn _ hr⟩
  · intro hne
    have : m.results.length > 0 := List.length_pos_iff.2 hne
    simp [Method.pass, this]
  · intro he
    simp [Method.pass, he]
  · unfold paramsPass
    rw [comma_items]
    · rw [List.map_map]
      apply List.map_congr_left
      intro p hpm
      exact readArg_pass (hp p hpm)
    · intro x hx; obtain ⟨p, hpm, rfl⟩ := List.mem_map.1 hx; exact pass_closed (hp p hpm)
    · intro x hx; obtain ⟨p, hpm, rfl⟩ := List.mem_map.1 hx; exact pass_starts (hp p hpm)
  · obtain ⟨c1, s1, v1⟩ := var_items m.params hp (fun p hp => h.types p (List.mem_append_left _ hp))
    unfold paramsString
    rw [comma_items _ c1 s1, v1]

/-- The type of the struct field that holds a parameter: a slice for a variadic one. -/
def FieldType (p : Param) (t : Str) : Prop :=
  (p.variadic = true ∧ ∃ elt, p.type = g!"..." ++ elt ∧ t = g!"[]" ++ elt) ∨
  (p.variadic = false ∧ t = p.type)

/-- `got` is, in order, one entry per parameter with the parameter's name and the field type
prefixed by `ptr`. -/
def FieldsOf (ptr : Str) (ps : List Param) (got : List (Str × Str)) : Prop :=
  got.map (·.1) = ps.map (·.name) ∧
  ∀ (i : Nat) p g, ps[i]? = some p → got[i]? = some g → ∃ t, FieldType p t ∧ g.2 = ptr ++ t

theorem replace_variadic (t : Str) : replaceFirst g!"..." g!"[]" (g!"..." ++ t) = g!"[]" ++ t := by
  simp [replaceFirst, List.isPrefixOf]

theorem struct_read (ptr : Str) (hptr : Closed ptr) (mid : Str) (hmid : mid = g!" " ++ ptr)
    (ps : List Param) (hn : ∀ p ∈ ps, PlainName p.name)
    (ht : ∀ p ∈ ps, Closed p.type)
    (hv : ∀ p ∈ ps, p.variadic = true → ∃ t, p.type = g!"..." ++ t) :
    ∃ got, readStruct (g!"struct{\n" ++ join g!"\n " (ps.map fun p =>
      if p.variadic then p.name ++ mid ++ replaceFirst g!"..." g!"[]" p.type
      else p.name ++ mid ++ p.type) ++ g!"}") = some got ∧ FieldsOf ptr ps got := by
  subst hmid
  -- the text of the type of a field
  let ft : Param → Str := fun p => if p.variadic then replaceFirst g!"..." g!"[]" p.type else p.type
  have he : (ps.map fun p => if p.variadic then p.name ++ (g!" " ++ ptr) ++ replaceFirst g!"..." g!"[]" p.type
      else p.name ++ (g!" " ++ ptr) ++ p.type) = ps.map fun p => p.name ++ g!" " ++ (ptr ++ ft p) := by
    apply List.map_congr_left
    intro p _
    simp only [ft]
    split <;> simp
  have hft : ∀ p ∈ ps, FieldType p (ft p) ∧ Closed (ft p) := by
    intro p hp
    simp only [ft]
    split
    · rename_i hvp
      obtain ⟨t, hte⟩ := hv p hp hvp
      rw [hte, replace_variadic]
      refine ⟨Or.inl ⟨hvp, t, hte, rfl⟩, ?_⟩
      have hc := ht p hp
      rw [hte] at hc
      have e1 : Closed t := by
        refine ⟨?_, ?_⟩
        · have := hc.1; rw [depth_append] at this; exact this
        · have := hc.2; rw [depth_append] at this; exact this
      exact Closed.append (by decide) e1
    · rename_i hvp
      exact ⟨Or.inr ⟨by simpa using hvp, rfl⟩, ht p hp⟩
  have hc : ∀ x ∈ ps.map (fun p => p.name ++ g!" " ++ (ptr ++ ft p)), Closed x := by
    intro x hx
    obtain ⟨p, hp, rfl⟩ := List.mem_map.1 hx
    exact blank_closed (hn p hp) (hptr.append (hft p hp).2) g!" " (by decide)
  have hs : ∀ x ∈ ps.map (fun p => p.name ++ g!" " ++ (ptr ++ ft p)), Starts x := by
    intro x hx
    obtain ⟨p, hp, rfl⟩ := List.mem_map.1 hx
    rw [List.append_assoc]
    exact plain_starts (hn p hp)
  refine ⟨ps.map fun p => (p.name, ptr ++ ft p), ?_, ?_, ?_⟩
  · rw [he]
    have hg := group_join g!"\n " (by decide) '}' (by decide) [] _ [] (fun x hx => (hc x hx).1)
    simp only [List.reverse_nil, List.nil_append] at hg
    simp only [List.cons_append, List.nil_append, readStruct, hg]
    rw [items_join '\n' g!" " (by decide) (by decide) (by decide) _ (fun x hx => (hc x hx).2) hs,
      List.map_map]
    congr 1
    apply List.map_congr_left
    intro p hp
    exact readVar_var (hn p hp)
  · simp [Function.comp_def]
  · intro i p g hp hg
    rw [List.getElem?_map, hp] at hg
    simp only [Option.map_some, Option.some.injEq] at hg
    subst hg
    exact ⟨ft p, (hft p (List.mem_of_getElem? hp)).1, rfl⟩

theorem map_read (ps : List Param) (hn : ∀ p ∈ ps, PlainName p.name) :
    readMap (g!"map[string]interface{}{\n" ++
      join g!",\n " (ps.map fun p => g!"\"" ++ p.name ++ g!"\": " ++ p.name) ++ g!"}") =
    some (ps.map fun p => (p.name, p.name)) := by
  have hc : ∀ x ∈ ps.map (fun p => g!"\"" ++ p.name ++ g!"\": " ++ p.name), Closed x := by
    intro x hx
    obtain ⟨p, hp, rfl⟩ := List.mem_map.1 hx
    exact (((show Closed g!"\"" by decide).append (plain_closed (hn p hp))).append (by decide)).append
      (plain_closed (hn p hp))
  have hs : ∀ x ∈ ps.map (fun p => g!"\"" ++ p.name ++ g!"\": " ++ p.name), Starts x := by
    intro x hx
    obtain ⟨p, hp, rfl⟩ := List.mem_map.1 hx
    exact ⟨'"', p.name ++ g!"\": " ++ p.name, by simp, by decide, by decide⟩
  have hg := group_join g!",\n " (by decide) '}' (by decide) [] _ [] (fun x hx => (hc x hx).1)
  simp only [List.reverse_nil, List.nil_append] at hg
  unfold readMap
  rw [List.append_assoc, if_pos (by simp [List.isPrefixOf])]
  rw [List.drop_left']
  · rw [hg]
    simp only
    rw [items_join ',' g!"\n " (by decide) (by decide) (by decide) _ (fun x hx => (hc x hx).1) hs,
      List.map_map]
    congr 1
    apply List.map_congr_left
    intro p hp
    have hnc : ':' ∉ g!"\"" ++ p.name ++ g!"\"" := by
      simp only [List.mem_append, List.mem_singleton, not_or]
      exact ⟨⟨by decide, fun hm => (plain_chars (hn p hp) _ hm).2.2.2.2.2.2.1 rfl⟩, by decide⟩
    have e : g!"\"" ++ p.name ++ g!"\": " ++ p.name =
        (g!"\"" ++ p.name ++ g!"\"") ++ ':' :: (g!" " ++ p.name) := by simp
    simp only [Function.comp, readMapEntry, e]
    rw [splitAtChar_not_mem ':' _ _ hnc]
    simp
  · rfl

theorem dot_closed {a b : Str} (ha : Closed a) (hb : PlainName b) : Closed (a ++ g!"." ++ b) :=
  (ha.append (by decide)).append (plain_closed hb)

/-- **C09** The struct and map renderings contain every parameter (result) once, in order, under its
name; a variadic `...T` becomes `[]T`, other types are unchanged; `ReturnStruct` selects the fields in
the order of the results. -/
theorem C09_structs (m : Method) (h : Readable m)
    (hrv : ∀ r ∈ m.results, r.variadic = false) (structName : Str) (hsn : PlainName structName) :
    (∃ got, readStruct m.paramsStruct = some got ∧ FieldsOf [] m.params got) ∧
    (∃ got, readStruct m.paramPtrsStruct = some got ∧ FieldsOf g!"*" m.params got) ∧
    (∃ got, readStruct m.resultsStruct = some got ∧ FieldsOf [] m.results got) ∧
    readMap m.paramsMap = some (m.params.map fun p => (p.name, p.name)) ∧
    readMap m.resultsMap = some (m.results.map fun p => (p.name, p.name)) ∧
    readReturn (m.returnStruct structName) =
      some (m.results.map fun r => structName ++ g!"." ++ r.name) ∧
    (m.hasParams = true ↔ m.params ≠ []) ∧ (m.hasResults = true ↔ m.results ≠ []) := by
  have hp : ∀ p ∈ m.params, PlainName p.name := fun p hp => h.names p (List.mem_append_left _ hp)
  have hr : ∀ p ∈ m.results, PlainName p.name := fun p hp => h.names p (List.mem_append_right _ hp)
  have htp : ∀ p ∈ m.params, Closed p.type := fun p hp => h.types p (List.mem_append_left _ hp)
  have htr : ∀ p ∈ m.results, Closed p.type := fun p hp => h.types p (List.mem_append_right _ hp)
  refine ⟨struct_read [] (by decide) g!" " rfl m.params hp htp h.variadic,
    struct_read g!"*" (by decide) g!" *" rfl m.params hp htp h.variadic, ?_,
    map_read _ hp, map_read _ hr, ?_, ?_, ?_⟩
  · obtain ⟨got, h1, h2⟩ := struct_read [] (by decide) g!" " rfl m.results hr htr
      (fun p hp hv => by rw [hrv p hp] at hv; cases hv)
    refine ⟨got, ?_, h2⟩
    rw [← h1]
    unfold Method.resultsStruct
    congr 3
    congr 1
    apply List.map_congr_left
    intro p hpm
    rw [hrv p hpm]
    simp
  · unfold Method.returnStruct
    split
    · rename_i h0
      have h0 : m.results = [] := by simpa using h0
      rw [h0]; rfl
    · rename_i h0
      have h0 : m.results ≠ [] := by simpa using h0
      unfold readReturn
      rw [if_neg (by simp), if_pos (by simp [List.isPrefixOf]), List.drop_left' rfl]
      congr 1
      apply comma_items
      · intro x hx
        obtain ⟨p, hpm, rfl⟩ := List.mem_map.1 hx
        exact dot_closed (plain_closed hsn) (hr p hpm)
      · intro x hx
        obtain ⟨p, hpm, rfl⟩ := List.mem_map.1 hx
        rw [List.append_assoc]
        exact plain_starts hsn
  · simp [Method.hasParams, List.length_pos_iff]
  · simp [Method.hasResults, List.length_pos_iff]

/-- Non-vacuity of C08 and C09. -/
def demoMethod : Method :=
  { doc := [], comment := [], name := g!"M"
    params := [⟨[], [], g!"ctx", g!"context.Context", false⟩,
      ⟨[], [], g!"f", g!"func(a int, b []string) (error)", false⟩,
      ⟨[], [], g!"args", g!"...struct{\nx int\n}", true⟩]
    results := [⟨[], [], g!"m1", g!"map[string]int", false⟩, ⟨[], [], g!"err", g!"error", false⟩]
    returnsError := true, acceptsContext := true }

example : Readable demoMethod ∧ (∀ r ∈ demoMethod.results, r.variadic = false) ∧
    PlainName g!"_results" ∧ demoMethod.call = g!"M(ctx, f, args...)" := by
  refine ⟨⟨by decide, by decide, by decide, ?_⟩, by decide, by decide, rfl⟩
  intro p hp hv
  simp [demoMethod] at hp
  rcases hp with rfl | rfl | rfl
  · cases hv
  · cases hv
  · exact ⟨g!"struct{\nx int\n}", rfl⟩

/-! ### Methods made by `NewMethod` are readable -/

theorem depth_of_closed {s : Str} {sep : Char} (hsep : sep = ',' ∨ sep = '\n') (h : Closed s) (d : Nat) :
    depth sep d s = some d := by
  have h0 : depth sep 0 s = some 0 := by rcases hsep with rfl | rfl; exact h.1; exact h.2
  have := depth_mono sep 0 0 d s h0
  simpa using this

/-- Inside a bracket separators do not matter. -/
theorem depth_join (sep : Char) (hsep : sep = ',' ∨ sep = '\n') (glue : Str)
    (hg : ∀ c ∈ glue, isOpen c = false ∧ isClose c = false) (d : Nat) :
    ∀ xs : List Str, (∀ x ∈ xs, Closed x) → depth sep (d + 1) (join glue xs) = some (d + 1) := by
  have hglue : ∀ g : Str, (∀ c ∈ g, isOpen c = false ∧ isClose c = false) →
      depth sep (d + 1) g = some (d + 1) := by
    intro g
    induction g with
    | nil => intro _; rfl
    | cons c g ih =>
      intro hg
      have hc := hg c (by simp)
      simp only [depth, hc.1, hc.2]
      rw [if_neg (by simp), if_neg (by simp), if_neg (by simp)]
      exact ih (fun c hc => hg c (by simp [hc]))
  intro xs
  induction xs with
  | nil => intro _; rfl
  | cons x xs ih =>
    intro hx
    cases xs with
    | nil => exact depth_of_closed hsep (hx x (by simp)) _
    | cons y xs =>
      simp only [join]
      rw [List.append_assoc, depth_append, depth_of_closed hsep (hx x (by simp)), Option.bind_some,
        depth_append, hglue glue hg, Option.bind_some]
      exact ih (fun z hz => hx z (by simp [hz]))

theorem closed_bracket {o c : Char} (ho : isOpen o = true) (hc : isClose c = true) {glue : Str}
    (hg : ∀ c ∈ glue, isOpen c = false ∧ isClose c = false) {xs : List Str}
    (hx : ∀ x ∈ xs, Closed x) (pre post : Str)
    (hpre : ∀ c ∈ pre, isOpen c = false ∧ isClose c = false)
    (hpost : ∀ c ∈ post, isOpen c = false ∧ isClose c = false) :
    Closed ([o] ++ (pre ++ join glue xs ++ post) ++ [c]) := by
  have hco : isOpen c = false := by
    revert hc; simp only [isOpen, isClose, decide_eq_true_eq]
    rintro (rfl | rfl | rfl) <;> rfl
  have key : ∀ sep : Char, sep = ',' ∨ sep = '\n' →
      depth sep 0 ([o] ++ (pre ++ join glue xs ++ post) ++ [c]) = some 0 := by
    intro sep hsep
    have hgl : ∀ g : Str, (∀ c ∈ g, isOpen c = false ∧ isClose c = false) →
        depth sep 1 g = some 1 := by
      intro g h
      have := depth_join sep hsep g h 0 [[], []] (by simp; decide)
      simpa [join] using this
    simp only [List.cons_append, List.nil_append, depth, ho, if_true]
    rw [depth_append, depth_append, depth_append, hgl pre hpre, Option.bind_some,
      depth_join sep hsep glue hg 0 xs hx, Option.bind_some, hgl post hpost, Option.bind_some]
    simp [depth, hc, hco]
  exact ⟨key _ (Or.inl rfl), key _ (Or.inr rfl)⟩

mutual
/-- The field names that end up in the text are names. -/
def PlainFields : Expr → Prop
  | .star x => PlainFields x
  | .ellipsis x => PlainFields x
  | .array _ x => PlainFields x
  | .mapT k v => PlainFields k ∧ PlainFields v
  | .chanT _ v => PlainFields v
  | .funcT ps rs => PlainFieldsL ps ∧ PlainFieldsO rs
  | .structT fs => PlainFieldsL fs
  | .index x i => PlainFields x ∧ PlainFields i
  | .indexList x is => PlainFields x ∧ is ≠ [] ∧ PlainFieldsE is
  | .ident n => PlainName n
  | _ => True
def PlainFieldsF : Field → Prop
  | .mk _ _ names t _ => (∀ n ∈ names, PlainName n) ∧ PlainFields t
def PlainFieldsL : List Field → Prop
  | [] => True
  | f :: fs => PlainFieldsF f ∧ PlainFieldsL fs
def PlainFieldsO : Option (List Field) → Prop
  | none => True
  | some fs => PlainFieldsL fs
def PlainFieldsE : List Expr → Prop
  | [] => True
  | e :: es => PlainFields e ∧ PlainFieldsE es
end

/-- Text produced by go/printer has balanced brackets; the package selector is a name. -/
structure PlainEnv (env : PrintEnv) : Prop where
  raw : ∀ e, Closed (env.raw e)
  pref : Closed env.pref

theorem printIdent_closed {env : PrintEnv} (he : PlainEnv env) {n s : Str} (hn : PlainName n)
    (h : printIdent env n = .ok s) : Closed s := by
  unfold printIdent at h
  split at h
  · split at h
    · split at h
      · cases h
      · cases h
      · cases h; exact (he.pref.append (by decide)).append (plain_closed hn)
    · cases h; exact plain_closed hn
  · cases h; exact he.raw _

theorem join_names_closed {names : List Str} (h : ∀ n ∈ names, PlainName n) (hl : names.length ≤ 1)
    {t : Str} (ht : Closed t) : Closed (join g!", " names ++ g!" " ++ t) := by
  match names, hl with
  | [], _ => exact Closed.append (by decide) ht
  | [n], _ => exact blank_closed (h n (by simp)) ht _ (by decide)

/-- A field `a, b T` is not closed (it has a comma) but it is fine inside brackets. -/
def InnerOk (s : Str) : Prop := ∀ sep, sep = ',' ∨ sep = '\n' → ∀ d, depth sep (d + 1) s = some (d + 1)

theorem closed_inner {s : Str} (h : Closed s) : InnerOk s := fun _ hs d => depth_of_closed hs h _

theorem InnerOk.append {a b : Str} (ha : InnerOk a) (hb : InnerOk b) : InnerOk (a ++ b) := by
  intro sep hs d
  rw [depth_append, ha sep hs d, Option.bind_some, hb sep hs d]

theorem inner_plain {s : Str} (h : ∀ c ∈ s, isOpen c = false ∧ isClose c = false) : InnerOk s := by
  intro sep hs d
  have := depth_join sep hs s h d [[], []] (by simp; decide)
  simpa [join] using this

theorem inner_join {glue : Str} (hg : ∀ c ∈ glue, isOpen c = false ∧ isClose c = false) :
    ∀ {xs : List Str}, (∀ x ∈ xs, InnerOk x) → InnerOk (join glue xs)
  | [], _ => inner_plain (by simp [join])
  | [x], h => h x (by simp)
  | x :: y :: xs, h => by
    simp only [join]
    exact ((h x (by simp)).append (inner_plain hg)).append (inner_join hg (fun z hz => h z (by simp [hz])))

theorem closed_of_inner {o c : Char} (ho : isOpen o = true) (hc : isClose c = true) {s : Str}
    (h : InnerOk s) : Closed ([o] ++ s ++ [c]) := by
  have hco : isOpen c = false := by
    revert hc; simp only [isOpen, isClose, decide_eq_true_eq]
    rintro (rfl | rfl | rfl) <;> rfl
  have key : ∀ sep : Char, sep = ',' ∨ sep = '\n' → depth sep 0 ([o] ++ s ++ [c]) = some 0 := by
    intro sep hsep
    simp only [List.cons_append, List.nil_append, depth, ho, if_true]
    rw [depth_append, h sep hsep 0, Option.bind_some]
    simp [depth, hc, hco]
  exact ⟨key _ (Or.inl rfl), key _ (Or.inr rfl)⟩

mutual
theorem printType_closed {env : PrintEnv} (he : PlainEnv env) : ∀ (e : Expr) (s : Str), PlainFields e →
    printType env e = .ok s → Closed s
  | .funcT ps rs, s, hp, h => by
    simp only [PlainFields] at hp
    simp only [printType, Res.bind_eq_ok, Res.pure_eq, Res.ok.injEq] at h
    obtain ⟨a, ha, b, hb, rfl⟩ := h
    have h1 := printFields_inner he ps a hp.1 ha
    have h2 := printResults_inner he rs b hp.2 hb
    have e : g!"func(" ++ join g!", " a ++ g!") (" ++ join g!", " b ++ g!")" =
      g!"func" ++ (['('] ++ join g!", " a ++ [')']) ++ g!" " ++ (['('] ++ join g!", " b ++ [')']) := by simp
    rw [e]
    exact (((show Closed g!"func" by decide).append (closed_of_inner rfl rfl (inner_join (by decide) h1))).append
      (by decide)).append (closed_of_inner rfl rfl (inner_join (by decide) h2))
  | .star x, s, hp, h => by
    simp only [PlainFields] at hp
    simp only [printType, Res.bind_eq_ok, Res.pure_eq, Res.ok.injEq] at h
    obtain ⟨a, ha, rfl⟩ := h
    exact Closed.append (by decide) (printType_closed he x a hp ha)
  | .ellipsis x, s, hp, h => by
    simp only [PlainFields] at hp
    simp only [printType, Res.bind_eq_ok, Res.pure_eq, Res.ok.injEq] at h
    obtain ⟨a, ha, rfl⟩ := h
    exact Closed.append (by decide) (printType_closed he x a hp ha)
  | .chanT d x, s, hp, h => by
    simp only [PlainFields] at hp
    simp only [printType, Res.bind_eq_ok, Res.pure_eq, Res.ok.injEq] at h
    obtain ⟨a, ha, rfl⟩ := h
    exact Closed.append (by cases d <;> decide) (printType_closed he x a hp ha)
  | .array l x, s, hp, h => by
    simp only [PlainFields] at hp
    simp only [printType, Res.bind_eq_ok, Res.pure_eq, Res.ok.injEq] at h
    obtain ⟨a, ha, rfl⟩ := h
    have hl : Closed (printRaw env l) := by
      cases l with
      | none => show Closed []; decide
      | some l => exact he.raw l
    exact (closed_of_inner (o := '[') (c := ']') rfl rfl (closed_inner hl)).append (printType_closed he x a hp ha)
  | .mapT k v, s, hp, h => by
    simp only [PlainFields] at hp
    simp only [printType, Res.bind_eq_ok, Res.pure_eq, Res.ok.injEq] at h
    obtain ⟨a, ha, b, hb, rfl⟩ := h
    have e : g!"map[" ++ a ++ g!"]" ++ b = g!"map" ++ (['['] ++ a ++ [']']) ++ b := by simp
    rw [e]
    exact ((show Closed g!"map" by decide).append (closed_of_inner rfl rfl
      (closed_inner (printType_closed he k a hp.1 ha)))).append (printType_closed he v b hp.2 hb)
  | .structT fs, s, hp, h => by
    simp only [PlainFields] at hp
    simp only [printType, Res.bind_eq_ok, Res.pure_eq, Res.ok.injEq] at h
    obtain ⟨a, ha, rfl⟩ := h
    have e : g!"struct{\n" ++ join g!"\n" a ++ g!"\n}" =
      g!"struct" ++ (['{'] ++ (g!"\n" ++ join g!"\n" a ++ g!"\n") ++ ['}']) := by simp
    rw [e]
    exact (show Closed g!"struct" by decide).append (closed_of_inner rfl rfl
      (((inner_plain (by decide)).append (inner_join (by decide) (printFields_inner he fs a hp ha))).append
        (inner_plain (by decide))))
  | .ident n, s, hp, h => by
    simp only [PlainFields] at hp
    exact printIdent_closed he hp h
  | .index x i, s, hp, h => by
    simp only [PlainFields] at hp
    simp only [printType, Res.bind_eq_ok, Res.pure_eq, Res.ok.injEq] at h
    obtain ⟨a, ha, b, hb, rfl⟩ := h
    have e : a ++ g!"[" ++ b ++ g!"]" = a ++ (['['] ++ b ++ [']']) := by simp
    rw [e]
    exact (printType_closed he x a hp.1 ha).append (closed_of_inner rfl rfl
      (closed_inner (printType_closed he i b hp.2 hb)))
  | .indexList x is, s, hp, h => by
    simp only [PlainFields] at hp
    simp only [printType, Res.bind_eq_ok] at h
    obtain ⟨a, ha, h⟩ := h
    obtain ⟨r, hr, rfl⟩ := printIndices_inner he is (a ++ g!"[") s hp.2.1 hp.2.2 h
    have e : a ++ g!"[" ++ r ++ g!"]" = a ++ (['['] ++ r ++ [']']) := by simp
    rw [e]
    exact (printType_closed he x a hp.1 ha).append (closed_of_inner rfl rfl hr)
  | .selector x sel, s, hp, h => by simp only [printType, Res.ok.injEq] at h; subst h; exact he.raw _
  | .sliceExpr x, s, hp, h => by simp only [printType, Res.ok.injEq] at h; subst h; exact he.raw _
  | .ifaceT ms, s, hp, h => by simp only [printType, Res.ok.injEq] at h; subst h; exact he.raw _
  | .paren x, s, hp, h => by simp only [printType, Res.ok.injEq] at h; subst h; exact he.raw _
  | .lit t, s, hp, h => by simp only [printType, Res.ok.injEq] at h; subst h; exact he.raw _
  | .unary o x, s, hp, h => by simp only [printType, Res.ok.injEq] at h; subst h; exact he.raw _
  | .binary o x y, s, hp, h => by simp only [printType, Res.ok.injEq] at h; subst h; exact he.raw _
  | .other t, s, hp, h => by simp only [printType, Res.ok.injEq] at h; subst h; exact he.raw _
theorem printIndices_inner {env : PrintEnv} (he : PlainEnv env) : ∀ (es : List Expr) (acc s : Str),
    es ≠ [] → PlainFieldsE es → printIndices env acc es = .ok s →
    ∃ r, InnerOk r ∧ s = acc ++ r ++ g!"]"
  | [], acc, s, h0, _, _ => absurd rfl h0
  | [e], acc, s, _, hp, h => by
    simp only [PlainFieldsE] at hp
    simp only [printIndices, Res.bind_eq_ok, List.isEmpty_nil, if_true, Res.ok.injEq] at h
    obtain ⟨a, ha, rfl⟩ := h
    exact ⟨a, closed_inner (printType_closed he e a hp.1 ha), rfl⟩
  | e :: e' :: es, acc, s, _, hp, h => by
    rw [PlainFieldsE] at hp
    rw [printIndices] at h
    simp only [Res.bind_eq_ok, List.isEmpty_cons] at h
    obtain ⟨a, ha, h⟩ := h
    obtain ⟨r, hr, rfl⟩ := printIndices_inner he (e' :: es) _ s (by simp) hp.2 h
    refine ⟨a ++ g!", " ++ r, ?_, by simp⟩
    exact ((closed_inner (printType_closed he e a hp.1 ha)).append (inner_plain (by decide))).append hr
theorem printField_inner {env : PrintEnv} (he : PlainEnv env) : ∀ (f : Field) (s : Str), PlainFieldsF f →
    printField env f = .ok s → InnerOk s
  | .mk _ _ names t _, s, hp, h => by
    simp only [PlainFieldsF] at hp
    simp only [printField, Res.bind_eq_ok, Res.pure_eq, Res.ok.injEq] at h
    obtain ⟨a, ha, rfl⟩ := h
    exact ((inner_join (by decide) (fun x hx => closed_inner (plain_closed (hp.1 x hx)))).append
      (inner_plain (by decide))).append (closed_inner (printType_closed he t a hp.2 ha))
theorem printFields_inner {env : PrintEnv} (he : PlainEnv env) : ∀ (fs : List Field) (l : List Str),
    PlainFieldsL fs → printFields env fs = .ok l → ∀ x ∈ l, InnerOk x
  | [], l, _, h => by simp only [printFields, Res.ok.injEq] at h; subst h; simp
  | f :: fs, l, hp, h => by
    simp only [PlainFieldsL] at hp
    simp only [printFields, Res.bind_eq_ok, Res.pure_eq, Res.ok.injEq] at h
    obtain ⟨a, ha, b, hb, rfl⟩ := h
    intro x hx
    simp only [List.mem_cons] at hx
    rcases hx with rfl | hx
    · exact printField_inner he f _ hp.1 ha
    · exact printFields_inner he fs b hp.2 hb x hx
theorem printResults_inner {env : PrintEnv} (he : PlainEnv env) : ∀ (fs : Option (List Field)) (l : List Str),
    PlainFieldsO fs → printResults env fs = .ok l → ∀ x ∈ l, InnerOk x
  | none, l, _, h => by simp only [printResults, Res.ok.injEq] at h; subst h; simp
  | some fs, l, hp, h => by
    simp only [PlainFieldsO] at hp
    simp only [printResults] at h
    exact printFields_inner he fs l hp h
end

theorem ident_plain {s : Str} (h : IsIdentifier (fun c => isPunct c = false) s) : PlainName s := by
  cases s with
  | nil => exact absurd h (by simp [IsIdentifier])
  | cons c s =>
    refine ⟨by simp, ?_⟩
    intro d hd
    simp only [List.mem_cons] at hd
    rcases hd with rfl | hd
    · exact h.1
    · rcases h.2 d hd with h2 | h2
      · exact h2
      · unfold IsDigit at h2
        cases hp : isPunct d with
        | false => rfl
        | true =>
          simp only [isPunct, isOpen, isClose, Bool.or_eq_true, decide_eq_true_eq] at hp
          rcases hp with ((((((hp | hp) | rfl) | rfl) | rfl) | rfl) | rfl) | rfl
          · rcases hp with rfl | rfl | rfl <;> cases h2
          · rcases hp with rfl | rfl | rfl <;> cases h2
          all_goals cases h2

/-- The source of a method consists of names without punctuation. -/
structure PlainSource (env : SigEnv) (name : Str) (params : List Field)
    (results : Option (List Field)) : Prop where
  penv : PlainEnv env.print
  name : PlainName name
  idents : SourceIdents (fun c => isPunct c = false) params results
  ascii : ∀ d ∈ declared params ++ declaredOpt results, ∀ c cs,
    coreName d.2.type = some (c :: cs) → AsciiLetter c
  types : ∀ d ∈ declared params ++ declaredOpt results, PlainFields d.2.type
  tparams : ∀ g ∈ env.genericTypes, ∀ n ∈ g.names, PlainName n
  targs : ∀ a ∈ env.genericParams, Closed a.string
  noVariadicResult : ∀ d ∈ declaredOpt results, ¬ IsVariadic d.2.type

/-- **C08/C09, premises** Every method made by `NewMethod` from such a source satisfies the premises of
`C08_forwarding` and `C09_structs`. -/
theorem C08_C09_applicable (env : SigEnv) (name : Str) (fi : Field) (m : Method) (params : List Field)
    (results : Option (List Field)) (ht : fi.type = .funcT params results)
    (h : newMethod env name fi = .ok m) (hs : PlainSource env name params results) :
    Readable m ∧ ∀ r ∈ m.results, r.variadic = false := by
  have hid := C60_identifiers_partial (fun c => isPunct c = false) env name fi m params results ht h
    hs.idents hs.ascii
  obtain ⟨params', results', htype, hname, _, _, lp, cp, lr, cr⟩ := C02_signature_preserved env name fi m h
  have hpr : params' = params ∧ results' = results := by
    rw [htype] at ht; cases ht; exact ⟨rfl, rfl⟩
  obtain ⟨rfl, rfl⟩ := hpr
  have corr : ∀ p ∈ m.params, ∃ d ∈ declared params', Corresponds env d p := by
    intro p hp
    obtain ⟨i, hi, rfl⟩ := List.mem_iff_getElem.1 hp
    have hi' : i < (declared params').length := by omega
    exact ⟨_, List.getElem_mem hi', cp i _ _ (List.getElem?_eq_getElem hi') (List.getElem?_eq_getElem hi)⟩
  have corr' : ∀ p ∈ m.results, ∃ d ∈ declaredOpt results', Corresponds env d p := by
    intro p hp
    obtain ⟨i, hi, rfl⟩ := List.mem_iff_getElem.1 hp
    have hi' : i < (declaredOpt results').length := by omega
    exact ⟨_, List.getElem_mem hi', cr i _ _ (List.getElem?_eq_getElem hi') (List.getElem?_eq_getElem hi)⟩
  have hclosed : ∀ d ∈ declared params' ++ declaredOpt results', ∀ p, Corresponds env d p → Closed p.type := by
    intro d hd p hc
    obtain ⟨s, hp, hi⟩ := hc.type
    rcases hi with ⟨i, arg, _, h2, h3⟩ | ⟨_, h3⟩
    · rw [h3]; exact hs.targs arg (List.mem_of_getElem? h2)
    · rw [h3]; exact printType_closed hs.penv _ _ (hs.types d hd) hp
  refine ⟨⟨by rw [hname]; exact hs.name, fun p hp => ident_plain (hid p hp), ?_, ?_⟩, ?_⟩
  · intro p hp
    rcases List.mem_append.1 hp with hp | hp
    · obtain ⟨d, hd, hc⟩ := corr p hp
      exact hclosed d (List.mem_append_left _ hd) p hc
    · obtain ⟨d, hd, hc⟩ := corr' p hp
      exact hclosed d (List.mem_append_right _ hd) p hc
  · intro p hp hv
    obtain ⟨d, hd, hc⟩ := corr p hp
    obtain ⟨elt, he⟩ := hc.variadic.1 hv
    obtain ⟨s, hps, hi⟩ := hc.type
    rw [he] at hps
    simp only [printType, Res.bind_eq_ok, Res.pure_eq, Res.ok.injEq] at hps
    obtain ⟨a, _, rfl⟩ := hps
    rcases hi with ⟨i, arg, h1, _, _⟩ | ⟨_, h3⟩
    · exfalso
      obtain ⟨g, hg, hn⟩ := List.mem_flatMap.1 (List.mem_of_getElem? h1)
      exact (plain_chars (hs.tparams g hg _ hn) '.' (by simp)).2.2.2.2.2.1 rfl
    · exact ⟨a, h3⟩
  · intro r hr
    obtain ⟨d, hd, hc⟩ := corr' r hr
    cases hv : r.variadic with
    | false => rfl
    | true => exact absurd (hc.variadic.1 hv) (hs.noVariadicResult d hd)

/-- Non-vacuity of the premises. -/
example : PlainSource { Demo.env with print := { Demo.env.print with raw := fun _ => g!"T" } } g!"M"
    [Demo.fld [g!"f"] (.funcT [Demo.fld [g!"a", g!"b"] Demo.int_] none),
     Demo.fld [] (.ellipsis Demo.string_)] none := by
  refine ⟨⟨fun _ => show Closed g!"T" by decide, by decide⟩, by decide, ⟨?_, ?_, ?_⟩, ?_, ?_, by simp [Demo.env], by simp [Demo.env],
    by simp [declaredOpt, declared]⟩
  · intro c hc
    cases hp : isPunct c with
    | false => rfl
    | true =>
      exfalso
      simp only [isPunct, isOpen, isClose, Bool.or_eq_true, decide_eq_true_eq] at hp
      rcases hc with hc | hc
      · rcases hp with ((((((hp | hp) | rfl) | rfl) | rfl) | rfl) | rfl) | rfl
        · rcases hp with rfl | rfl | rfl <;> cases hc
        · rcases hp with rfl | rfl | rfl <;> cases hc
        all_goals cases hc
      · subst hc; revert hp; decide
  · intro d hd n hn
    simp [declared, declaredOpt, Demo.fld, Field.names] at hd
    rcases hd with rfl | rfl <;> simp at hn
    subst hn; exact ⟨rfl, by simp⟩
  · intro d hd n hn
    simp [declared, declaredOpt, Demo.fld, Field.names] at hd
    rcases hd with rfl | rfl <;> simp [Field.type, coreName] at hn
  · intro d hd c cs hn
    simp [declared, declaredOpt, Demo.fld, Field.names] at hd
    rcases hd with rfl | rfl <;> simp [Field.type, coreName] at hn
  · intro d hd
    simp [declared, declaredOpt, Demo.fld, Field.names] at hd
    rcases hd with rfl | rfl <;>
      simp [Field.type, PlainFields, PlainFieldsL, PlainFieldsO, PlainFieldsF, Demo.int_, Demo.string_] <;> decide

end Gowrap.Props
