import Verif.Model.TextTemplate
import Verif.Proofs.Methods
import Verif.Props.Imports
/-!
# The order of a map does not matter to any template
-/

namespace Gowrap.Tmpl

open Gowrap

mutual

/-- The same values, except that maps may be in different orders. -/
inductive Alike : TVal → TVal → Prop
  | refl (v : TVal) : Alike v v
  | map {es es' : List (Str × TVal)} (hn : (es.map (·.1)).Nodup) (hp : es.Perm es') : Alike (.map es) (.map es')
  | struct {fs fs' : List (Str × TVal)} (h : AlikeFields fs fs') : Alike (.struct fs) (.struct fs')

inductive AlikeFields : List (Str × TVal) → List (Str × TVal) → Prop
  | nil : AlikeFields [] []
  | cons {f : Str} {v v' : TVal} {fs fs' : List (Str × TVal)} (h : Alike v v') (hs : AlikeFields fs fs') :
      AlikeFields ((f, v) :: fs) ((f, v') :: fs')

end

/-- Both fail, or both give values that are alike. -/
inductive AlikeOpt : Option TVal → Option TVal → Prop
  | none : AlikeOpt none none
  | some {v v' : TVal} (h : Alike v v') : AlikeOpt (some v) (some v')

inductive AlikeList : List TVal → List TVal → Prop
  | nil : AlikeList [] []
  | cons {v v' : TVal} {vs vs' : List TVal} (h : Alike v v') (hs : AlikeList vs vs') : AlikeList (v :: vs) (v' :: vs')

inductive AlikeOpts : Option (List TVal) → Option (List TVal) → Prop
  | none : AlikeOpts none none
  | some {v v' : List TVal} (h : AlikeList v v') : AlikeOpts (some v) (some v')

theorem AlikeOpt.refl (v : Option TVal) : AlikeOpt v v := by
  cases v with
  | none => exact .none
  | some v => exact .some (.refl v)

theorem AlikeFields.refl : ∀ fs, AlikeFields fs fs
  | [] => .nil
  | (_, _) :: fs => .cons (.refl _) (AlikeFields.refl fs)

theorem AlikeList.refl : ∀ vs, AlikeList vs vs
  | [] => .nil
  | _ :: vs => .cons (.refl _) (AlikeList.refl vs)

theorem Alike.truth {v v' : TVal} (h : Alike v v') : v.truth = v'.truth := by
  cases h with
  | refl => rfl
  | @map es es' hn hp =>
    have hl := hp.length_eq
    cases es with
    | nil =>
      cases es' with
      | nil => rfl
      | cons => simp at hl
    | cons =>
      cases es' with
      | nil => simp at hl
      | cons => rfl
  | struct => rfl

theorem Alike.opaque {v v' : TVal} (h : Alike v v') : v.opaque = v'.opaque := by cases h <;> rfl

theorem Alike.print {v v' : TVal} (h : Alike v v') : v.print = v'.print := by cases h <;> rfl

theorem Alike.percentS {v v' : TVal} (h : Alike v v') : v.percentS = v'.percentS := by cases h <;> rfl

/-- A string is only like itself. -/
theorem Alike.str {v' : TVal} {s : Str} (h : Alike (.str s) v') : v' = .str s := by cases h; rfl

theorem Alike.eqv {a a' b b' : TVal} (h : Alike a a') (h' : Alike b b') : a.eqv b = a'.eqv b' := by
  cases h with
  | refl =>
    cases h' with
    | refl => rfl
    | map => cases a <;> rfl
    | struct => cases a <;> rfl
  | map => rfl
  | struct => rfl

theorem AlikeFields.lookup {fs fs' : List (Str × TVal)} (h : AlikeFields fs fs') (f : Str) : AlikeOpt (fs.lookup f) (fs'.lookup f) := by
  match h with
  | .nil => exact .none
  | .cons (f := g) h hs =>
    simp only [List.lookup_cons]
    split
    · exact .some h
    · exact hs.lookup f

theorem AlikeList.nil_left {vs' : List TVal} (h : AlikeList [] vs') : vs' = [] := by cases h; rfl

theorem strings_alike : ∀ {vs vs' : List TVal}, AlikeList vs vs' → strings vs = strings vs'
  | _, _, .nil => rfl
  | _, _, .cons (.refl v) hs => by
    cases v with
    | str s => simp only [strings, strings_alike hs]
    | _ => rfl
  | _, _, .cons (.map _ _) _ => rfl
  | _, _, .cons (.struct _) _ => rfl

theorem importCall_alike {fs fs' : List (Str × TVal)} (h : AlikeFields fs fs') {as as' : List TVal} (ha : AlikeList as as') :
    AlikeOpt (importCall fs as) (importCall fs' as') := by
  unfold importCall
  have hl := h.lookup g!"Imports"
  rw [strings_alike ha]
  generalize fs.lookup g!"Imports" = r at hl ⊢
  generalize fs'.lookup g!"Imports" = r' at hl ⊢
  cases hl with
  | none => exact .none
  | some hv =>
    cases hv with
    | refl => exact .refl _
    | map => exact .none
    | struct => exact .none

theorem Alike.access {v v' : TVal} (h : Alike v v') (f : Str) {as as' : List TVal} (ha : AlikeList as as') :
    AlikeOpt (v.access f as) (v'.access f as') := by
  cases h with
  | refl =>
    cases ha with
    | nil => exact .refl _
    | cons h hs =>
      cases v with
      | method m =>
        cases hs with
        | nil =>
          cases h with
          | refl => exact .refl _
          | map => exact .none
          | struct => exact .none
        | cons h' hs' =>
          simp only [TVal.access, Method.access]
          exact .none
      | struct fs =>
        simp only [TVal.access]
        split
        · exact importCall_alike (.refl _) (.cons h hs)
        · exact .none
      | _ => exact .none
  | map hn hp =>
    cases ha with
    | nil => simp only [TVal.access]; rw [lookup_perm hn hp]; exact .refl _
    | cons => exact .none
  | struct hf =>
    simp only [TVal.access]
    split
    · exact importCall_alike hf ha
    · cases ha with
      | nil => exact hf.lookup f
      | cons => exact .none

theorem Alike.chain : ∀ (fs : List Str) {v v' : TVal} {as as' : List TVal}, Alike v v' → AlikeList as as' →
    AlikeOpt (v.chain fs as) (v'.chain fs as')
  | [], _, _, _, _, h, .nil => .some h
  | [], _, _, _, _, _, .cons _ _ => .none
  | [f], _, _, _, _, h, ha => h.access f ha
  | f :: g :: fs, v, v', as, as', h, ha => by
    have h1 := h.access f .nil
    simp only [TVal.chain]
    generalize v.access f [] = r at h1 ⊢
    generalize v'.access f [] = r' at h1 ⊢
    cases h1 with
    | none => exact .none
    | some h1 => exact Alike.chain (g :: fs) h1 ha

theorem sprintf_alike : ∀ (fmt : Str) {vs vs' : List TVal}, AlikeList vs vs' → sprintf fmt vs = sprintf fmt vs'
  | [], _, _, .nil => rfl
  | [], _, _, .cons _ _ => rfl
  | c :: rest, vs, vs', h => by
    have ih := sprintf_alike rest h
    by_cases hc : c = '%'
    · subst hc
      cases rest with
      | nil => cases h <;> simp [sprintf]
      | cons d rest =>
        by_cases hd : d = 's'
        · subst hd
          cases h with
          | nil => simp [sprintf]
          | cons h hs => simp only [sprintf]; rw [h.percentS, sprintf_alike rest hs]
        · cases h <;> simp [sprintf, hd]
    · have e : ∀ vs, sprintf (c :: rest) vs = (do let r ← sprintf rest vs; return c :: r) := by
        intro vs
        rw [sprintf.eq_def]
        split <;> simp_all
      rw [e, e, ih]

theorem orFn_alike : ∀ {vs vs' : List TVal}, AlikeList vs vs' → AlikeOpt (callFn.orFn vs) (callFn.orFn vs')
  | _, _, .nil => .none
  | _, _, .cons h .nil => .some h
  | _, _, .cons h (.cons h' hs) => by
    simp only [callFn.orFn, h.truth, h.opaque]
    split
    · exact .none
    split
    · exact .some h
    · exact orFn_alike (.cons h' hs)

theorem andFn_alike : ∀ {vs vs' : List TVal}, AlikeList vs vs' → AlikeOpt (callFn.andFn vs) (callFn.andFn vs')
  | _, _, .nil => .none
  | _, _, .cons h .nil => .some h
  | _, _, .cons h (.cons h' hs) => by
    simp only [callFn.andFn, h.truth, h.opaque]
    split
    · exact .none
    split
    · exact andFn_alike (.cons h' hs)
    · exact .some h

theorem moreFn_alike (u : Uni) (f : Str) {vs vs' : List TVal} (h : AlikeList vs vs') : AlikeOpt (moreFn u f vs) (moreFn u f vs') := by
  unfold moreFn
  split
  · cases h with
    | nil => exact .none
    | cons h hs =>
      cases hs with
      | nil => exact .none
      | cons h' hs =>
        cases hs with
        | nil => simp only [h.eqv h']; exact .refl _
        | cons => exact .none
  split
  · cases h with
    | nil => exact .none
    | @cons v _ _ _ h hs =>
      cases hs with
      | nil => cases h with
        | refl => exact .refl _
        | map => exact .none
        | struct => exact .none
      | cons => cases h with
        | refl => cases v <;> exact .none
        | map => exact .none
        | struct => exact .none
  split
  · cases h with
    | nil => exact .none
    | @cons v _ _ _ h hs =>
      cases hs with
      | nil => cases h with
        | refl => exact .refl _
        | map => exact .none
        | struct => exact .none
      | cons => cases h with
        | refl => cases v <;> exact .none
        | map => exact .none
        | struct => exact .none
  split
  · cases h with
    | nil => exact .none
    | @cons v _ _ _ h hs =>
      cases hs with
      | nil => cases h with
        | refl => exact .refl _
        | map => exact .none
        | struct => exact .none
      | cons => cases h with
        | refl => cases v <;> exact .none
        | map => exact .none
        | struct => exact .none
  split
  · rw [strings_alike h]; exact .refl _
  exact .none

theorem callFn_alike (u : Uni) (f : Str) {vs vs' : List TVal} (h : AlikeList vs vs') : AlikeOpt (callFn u f vs) (callFn u f vs') := by
  unfold callFn
  split
  · exact orFn_alike h
  split
  · exact andFn_alike h
  split
  · cases h with
    | nil => exact .none
    | cons h hs =>
      cases hs with
      | nil => simp only [h.truth, h.opaque]; exact .refl _
      | cons => exact .none
  split
  · cases h with
    | nil => exact .none
    | cons h hs =>
      cases hs with
      | nil => exact .none
      | cons h' hs =>
        cases hs with
        | nil => simp only [h.eqv h']; exact .refl _
        | cons => exact .none
  split
  · cases h with
    | nil => exact .none
    | @cons v _ _ _ h hs =>
      cases h with
      | refl =>
        cases v with
        | str s => simp only [sprintf_alike s hs]; exact .refl _
        | _ => exact .none
      | map => exact .none
      | struct => exact .none
  split
  · cases h with
    | nil => exact .none
    | @cons v _ _ _ h hs =>
      cases hs with
      | nil => cases h with
        | refl => exact .refl _
        | map => exact .none
        | struct => exact .none
      | cons => cases h with
        | refl => cases v <;> exact .none
        | map => exact .none
        | struct => exact .none
  split
  · cases h with
    | nil => exact .none
    | @cons v _ _ _ h hs =>
      cases hs with
      | nil => cases h with
        | refl => exact .refl _
        | map => exact .none
        | struct => exact .none
      | cons => cases h with
        | refl => cases v <;> exact .none
        | map => exact .none
        | struct => exact .none
  exact moreFn_alike u f h

/-- The same variables. -/
structure AlikeScope (sc sc' : Scope) : Prop where
  vars : AlikeFields sc.vars sc'.vars
  dot : Alike sc.dot sc'.dot

theorem AlikeScope.bind {sc sc' : Scope} (h : AlikeScope sc sc') (x : Str) {v v' : TVal} (hv : Alike v v') :
    AlikeScope (sc.bind x v) (sc'.bind x v') := ⟨.cons hv h.vars, h.dot⟩

mutual

theorem evalArg_alike (u : Uni) {sc sc' : Scope} (h : AlikeScope sc sc') : ∀ a, AlikeOpt (evalArg u sc a) (evalArg u sc' a)
  | .dot fs => by simp only [evalArg]; exact Alike.chain fs h.dot .nil
  | .var x fs => by
    simp only [evalArg]
    have hv := h.vars.lookup x
    generalize sc.vars.lookup x = r at hv ⊢
    generalize sc'.vars.lookup x = r' at hv ⊢
    cases hv with
    | none => exact .none
    | some hv => exact Alike.chain fs hv .nil
  | .str s => by simp only [evalArg]; exact .refl _
  | .bool b => by simp only [evalArg]; exact .refl _
  | .fn f => by simp only [evalArg]; exact callFn_alike u f .nil
  | .paren args => by simp only [evalArg]; exact evalCmd_alike u h args

theorem evalArgs_alike (u : Uni) {sc sc' : Scope} (h : AlikeScope sc sc') : ∀ as, AlikeOpts (evalArgs u sc as) (evalArgs u sc' as)
  | [] => by simp only [evalArgs]; exact .some .nil
  | a :: as => by
    simp only [evalArgs]
    have h1 := evalArg_alike u h a
    have h2 := evalArgs_alike u h as
    generalize evalArg u sc a = r at h1 ⊢
    generalize evalArg u sc' a = r' at h1 ⊢
    generalize evalArgs u sc as = q at h2 ⊢
    generalize evalArgs u sc' as = q' at h2 ⊢
    cases h1 with
    | none => exact .none
    | some h1 =>
      cases h2 with
      | none => exact .none
      | some h2 => exact .some (.cons h1 h2)

theorem evalCmd_alike (u : Uni) {sc sc' : Scope} (h : AlikeScope sc sc') : ∀ as, AlikeOpt (evalCmd u sc as) (evalCmd u sc' as)
  | [] => by simp only [evalCmd]; exact .none
  | .dot fs :: as => by
    simp only [evalCmd]
    have h2 := evalArgs_alike u h as
    generalize evalArgs u sc as = q at h2 ⊢
    generalize evalArgs u sc' as = q' at h2 ⊢
    cases h2 with
    | none => exact .none
    | some h2 => exact Alike.chain fs h.dot h2
  | .var x fs :: as => by
    simp only [evalCmd]
    have h2 := evalArgs_alike u h as
    generalize evalArgs u sc as = q at h2 ⊢
    generalize evalArgs u sc' as = q' at h2 ⊢
    cases h2 with
    | none => exact .none
    | some h2 =>
      have hv := h.vars.lookup x
      show AlikeOpt (Option.bind (sc.vars.lookup x) _) (Option.bind (sc'.vars.lookup x) _)
      generalize sc.vars.lookup x = r at hv ⊢
      generalize sc'.vars.lookup x = r' at hv ⊢
      cases hv with
      | none => exact .none
      | some hv => exact Alike.chain fs hv h2
  | .fn f :: as => by
    simp only [evalCmd]
    have h2 := evalArgs_alike u h as
    generalize evalArgs u sc as = q at h2 ⊢
    generalize evalArgs u sc' as = q' at h2 ⊢
    cases h2 with
    | none => exact .none
    | some h2 => exact callFn_alike u f h2
  | .str s :: [] => by simp only [evalCmd]; exact .refl _
  | .str _ :: _ :: _ => by simp only [evalCmd]; exact .none
  | .bool b :: [] => by simp only [evalCmd]; exact .refl _
  | .bool _ :: _ :: _ => by simp only [evalCmd]; exact .none
  | .paren args :: [] => by simp only [evalCmd]; exact evalCmd_alike u h args
  | .paren _ :: _ :: _ => by simp only [evalCmd]; exact .none

end

/-- Entries with distinct keys have one order. -/
theorem sorted_perm {es es' : List (Str × TVal)} (hn : (es.map (·.1)).Nodup) (hp : es.Perm es') :
    sortBy (fun a b => decide (a.1 ≤ b.1)) es = sortBy (fun a b => decide (a.1 ≤ b.1)) es' := by
  have key : ∀ l : List (Str × TVal), (l.map (·.1)).Nodup →
      (sortBy (fun (a b : Str × TVal) => decide (a.1 ≤ b.1)) l).Pairwise fun a b => a.1 < b.1 := by
    intro l hl
    have hs := sortBy_sorted (le := fun (a b : Str × TVal) => decide (a.1 ≤ b.1))
      (by intro a b c; simpa using List.le_trans) (by intro a b; simpa using List.le_total _ _) l
    have hn' : ((sortBy (fun (a b : Str × TVal) => decide (a.1 ≤ b.1)) l).map (·.1)).Nodup := ((sortBy_perm _ l).map _).nodup_iff.2 hl
    rw [List.Nodup, List.pairwise_map] at hn'
    refine List.Pairwise.imp₂ ?_ hs hn'
    intro a b h1 h2
    simp only [decide_eq_true_eq] at h1
    rcases List.le_iff_lt_or_eq.1 h1 with h | h
    · exact h
    · exact absurd h h2
  refine List.Perm.eq_of_pairwise (le := fun (a b : Str × TVal) => a.1 < b.1) ?_ (key _ hn) (key _ ((hp.map _).nodup_iff.1 hn)) ?_
  · intro a b _ _ h h'
    exact absurd h' (List.lt_asymm h)
  · exact (sortBy_perm _ _).trans (hp.trans (sortBy_perm _ _).symm)

theorem Alike.elements {v v' : TVal} (h : Alike v v') : v.elements = v'.elements := by
  cases h with
  | refl => rfl
  | map hn hp => simp only [TVal.elements, sorted_perm hn hp]
  | struct => rfl

theorem rangeLoop_congr {b b' : TVal → Str → Option Str} (h : ∀ v w, b v w = b' v w) (vs : List TVal) (w : Str) :
    rangeLoop b vs w = rangeLoop b' vs w := by
  have : b = b' := by funext v w; exact h v w
  rw [this]

mutual

theorem execNode_alike (u : Uni) {sc sc' : Scope} (h : AlikeScope sc sc') : ∀ n w, execNode u sc n w = execNode u sc' n w
  | .text s, w => by simp only [execNode]
  | .print cmd, w => by
    simp only [execNode]
    have hv := evalCmd_alike u h cmd
    generalize evalCmd u sc cmd = r at hv ⊢
    generalize evalCmd u sc' cmd = r' at hv ⊢
    cases hv with
    | none => rfl
    | some hv => show Option.bind (some _) _ = Option.bind (some _) _; simp only [Option.bind_some, hv.print]
  | .declare _ _, w => by simp only [execNode]
  | .cond cmd yes no, w => by
    simp only [execNode]
    have hv := evalCmd_alike u h cmd
    generalize evalCmd u sc cmd = r at hv ⊢
    generalize evalCmd u sc' cmd = r' at hv ⊢
    cases hv with
    | none => rfl
    | some hv =>
      show Option.bind (some _) _ = Option.bind (some _) _
      simp only [Option.bind_some, hv.truth, hv.opaque, execNodes_alike u h yes w, execNodes_alike u h no w]
  | .range x cmd body no, w => by
    simp only [execNode]
    have hv := evalCmd_alike u h cmd
    generalize evalCmd u sc cmd = r at hv ⊢
    generalize evalCmd u sc' cmd = r' at hv ⊢
    cases hv with
    | none => rfl
    | some hv =>
      have e : ∀ v w, execNodes u { sc.bind x v with dot := v } body w = execNodes u { sc'.bind x v with dot := v } body w := by
        intro v w
        have h' : AlikeScope { sc.bind x v with dot := v } { sc'.bind x v with dot := v } := ⟨.cons (.refl v) h.vars, .refl v⟩
        exact execNodes_alike u h' body w
      show Option.bind (some _) _ = Option.bind (some _) _
      simp only [Option.bind_some, hv.elements, execNodes_alike u h no w, e]
  | .each cmd body no, w => by
    simp only [execNode]
    have hv := evalCmd_alike u h cmd
    generalize evalCmd u sc cmd = r at hv ⊢
    generalize evalCmd u sc' cmd = r' at hv ⊢
    cases hv with
    | none => rfl
    | some hv =>
      have e : ∀ v w, execNodes u { sc with dot := v } body w = execNodes u { sc' with dot := v } body w := by
        intro v w
        have h' : AlikeScope { sc with dot := v } { sc' with dot := v } := ⟨h.vars, .refl v⟩
        exact execNodes_alike u h' body w
      show Option.bind (some _) _ = Option.bind (some _) _
      simp only [Option.bind_some, hv.elements, execNodes_alike u h no w, e]
  | .with_ cmd yes no, w => by
    simp only [execNode]
    have hv := evalCmd_alike u h cmd
    generalize evalCmd u sc cmd = r at hv ⊢
    generalize evalCmd u sc' cmd = r' at hv ⊢
    cases hv with
    | none => rfl
    | @some v v' hv =>
      have h' : AlikeScope { sc with dot := v } { sc' with dot := v' } := ⟨h.vars, hv⟩
      show Option.bind (some _) _ = Option.bind (some _) _
      simp only [Option.bind_some, hv.truth, hv.opaque, execNodes_alike u h' yes w, execNodes_alike u h no w]

theorem execNodes_alike (u : Uni) {sc sc' : Scope} (h : AlikeScope sc sc') : ∀ ns w, execNodes u sc ns w = execNodes u sc' ns w
  | [], w => by simp only [execNodes]
  | .declare x cmd :: ns, w => by
    simp only [execNodes]
    have hv := evalCmd_alike u h cmd
    generalize evalCmd u sc cmd = r at hv ⊢
    generalize evalCmd u sc' cmd = r' at hv ⊢
    cases hv with
    | none => rfl
    | some hv => exact execNodes_alike u (h.bind x hv) ns w
  | .text s :: ns, w => by simp only [execNodes, execNode_alike u h (.text s), execNodes_alike u h ns]
  | .print cmd :: ns, w => by simp only [execNodes, execNode_alike u h (.print cmd), execNodes_alike u h ns]
  | .cond cmd yes no :: ns, w => by simp only [execNodes, execNode_alike u h (.cond cmd yes no), execNodes_alike u h ns]
  | .range x cmd body no :: ns, w => by simp only [execNodes, execNode_alike u h (.range x cmd body no), execNodes_alike u h ns]
  | .each cmd body no :: ns, w => by simp only [execNodes, execNode_alike u h (.each cmd body no), execNodes_alike u h ns]
  | .with_ cmd yes no :: ns, w => by simp only [execNodes, execNode_alike u h (.with_ cmd yes no), execNodes_alike u h ns]

end

/-- The order of the methods does not matter. -/
theorem render_perm (u : Uni) (body : Str) (d : Inputs) {ms : Methods} (hn : (d.methods.map (·.1)).Nodup) (hp : ms.Perm d.methods) :
    render u body { d with methods := ms } = render u body d := by
  have hv : Alike d.value ({ d with methods := ms } : Inputs).value := by
    refine .struct (.cons (.struct (.cons (.refl _) (.cons (.refl _) (.cons (.refl _) (.cons (.map ?_ (hp.symm.map _)) .nil)))))
      (.cons (.refl _) (.cons (.refl _) .nil)))
    rw [List.map_map]
    exact hn
  unfold render
  cases parse body with
  | none => rfl
  | some ns => exact (execNodes_alike u ⟨.cons hv .nil, hv⟩ ns []).symm

end Gowrap.Tmpl
