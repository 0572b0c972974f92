import Verif.Model.Cli
/-!
# Template variables on the command line (C32, without the round trip)
-/

namespace Gowrap.Props

open Gowrap

/-! ## C32 -/

theorem splitEq_spec : ∀ s : Str, '=' ∉ (splitEq s).1 ∧
    s = (splitEq s).1 ++ (match (splitEq s).2 with | none => [] | some v => '=' :: v)
  | [] => by simp [splitEq]
  | c :: cs => by
    have ih := splitEq_spec cs
    rw [splitEq]
    split
    · rename_i h; subst h; simp
    · rename_i h
      refine ⟨?_, ?_⟩
      · simp only [List.mem_cons, not_or]; exact ⟨Ne.symm h, ih.1⟩
      · rw [List.cons_append, ← ih.2]

/-- `v` is the variable given by the argument `arg` of `-v`: the name is the text before the first
equals sign, the value the text after it, or `true` if there is none. -/
def GivenBy (arg : Str) (v : VarFlag) : Prop :=
  '=' ∉ v.name ∧ ((v.value = .flag ∧ arg = v.name) ∨ ∃ t, v.value = .text t ∧ arg = v.name ++ '=' :: t)

theorem givenBy_varOf (arg : Str) : GivenBy arg (varOf arg) := by
  have h := splitEq_spec arg
  unfold varOf GivenBy
  cases hs : splitEq arg with
  | mk n v =>
    rw [hs] at h
    cases v with
    | none => exact ⟨h.1, Or.inl ⟨rfl, by simpa using h.2⟩⟩
    | some t => exact ⟨h.1, Or.inr ⟨t, rfl, h.2⟩⟩

theorem givenBy_unique {arg : Str} {v w : VarFlag} (hv : GivenBy arg v) (hw : GivenBy arg w) : v = w := by
  have key : ∀ (a b x y : Str), '=' ∉ a → '=' ∉ b → a ++ '=' :: x = b ++ '=' :: y → a = b ∧ x = y := by
    intro a
    induction a with
    | nil =>
      intro b x y _ hb h
      cases b with
      | nil => simpa using h
      | cons c cs =>
        simp only [List.nil_append, List.cons_append, List.cons.injEq] at h
        simp [← h.1] at hb
    | cons c cs ih =>
      intro b x y ha hb h
      cases b with
      | nil =>
        simp only [List.nil_append, List.cons_append, List.cons.injEq] at h
        simp [h.1] at ha
      | cons d ds =>
        simp only [List.cons_append, List.cons.injEq] at h
        simp only [List.mem_cons, not_or] at ha hb
        have := ih ds x y ha.2 hb.2 h.2
        exact ⟨by rw [h.1, this.1], this.2⟩
  obtain ⟨hn, hv⟩ := hv
  obtain ⟨hm, hw⟩ := hw
  cases v with
  | mk n a =>
  cases w with
  | mk m b =>
  simp only at hn hm hv hw
  rcases hv with ⟨rfl, rfl⟩ | ⟨t, rfl, rfl⟩
  · rcases hw with ⟨rfl, h⟩ | ⟨u, rfl, h⟩
    · rw [h]
    · exact absurd (by rw [h]; simp) hn
  · rcases hw with ⟨rfl, h⟩ | ⟨u, rfl, h⟩
    · exact absurd (by rw [← h]; simp) hm
    · obtain ⟨h1, h2⟩ := key _ _ _ _ hn hm h
      rw [h1, h2]

theorem varArg_varOf (arg : Str) : varArg (varOf arg) = arg := by
  have h := givenBy_varOf arg
  unfold varArg
  rcases h.2 with ⟨hv, ha⟩ | ⟨t, hv, ha⟩
  · rw [hv, ← ha]
  · rw [hv]; simp only; rw [List.append_assoc, List.singleton_append, ← ha]

/-- The value of a variable after all `-v` arguments: that of the last one with this name. -/
def lastValue (vs : List VarFlag) (n : Str) : Option VarValue :=
  ((vs.filter (fun v => v.name = n)).getLast?).map (·.value)

theorem varsMap_eq (vs : List VarFlag) (n : Str) : varsMap vs n = lastValue vs n := by
  unfold varsMap lastValue
  suffices h : ∀ (m : Str → Option VarValue),
      vs.foldl (fun m v => fun n => if n = v.name then some v.value else m n) m n =
        (((vs.filter (fun v => v.name = n)).getLast?).map (·.value)).or (m n) by
    rw [h]; simp
  induction vs with
  | nil => intro m; simp
  | cons v vs ih =>
    intro m
    rw [List.foldl_cons, ih, List.filter_cons]
    by_cases hv : v.name = n
    · simp only [hv, if_true, decide_true]
      cases hl : (vs.filter (fun v => v.name = n)).getLast? with
      | none =>
        rw [List.getLast?_eq_none_iff] at hl
        rw [hl]; simp
      | some w =>
        rw [List.getLast?_cons, hl]; simp
    · have : ¬ n = v.name := fun h => hv h.symm
      simp [hv, this]

/-- The arguments `-v a₁ -v a₂ …`. -/
def vArgs (as : List Str) : List Str := as.flatMap fun a => [g!"-v", a]

theorem parse_v (f : GenFlags) (a : Str) (rest : List Str) :
    parseGen f (g!"-v" :: a :: rest) = parseGen { f with vars := f.vars ++ [varOf a] } rest := rfl

theorem parseGen_vArgs (as : List Str) : ∀ (f : GenFlags) (rest : List Str),
    parseGen f (vArgs as ++ rest) = parseGen { f with vars := f.vars ++ as.map varOf } rest := by
  induction as with
  | nil => intro f rest; simp [vArgs]
  | cons a as ih =>
    intro f rest
    show parseGen f (g!"-v" :: a :: (vArgs as ++ rest)) = _
    rw [parse_v, ih]
    simp

/-- **C32** Every sequence of `-v` arguments yields exactly the given variables, in order; a lookup
finds the last value given for a name. -/
theorem C32_vars (as : List Str) :
    ∃ f, parseGen {} (vArgs as) = .ok (f, []) ∧ f.vars.length = as.length ∧
      (∀ (i : Nat) a v, as[i]? = some a → f.vars[i]? = some v → GivenBy a v) ∧
      ∀ n, varsMap f.vars n = lastValue f.vars n := by
  have h := parseGen_vArgs as {} []
  rw [List.append_nil] at h
  refine ⟨{ vars := as.map varOf }, by rw [h]; rfl, by simp, ?_, fun n => varsMap_eq _ n⟩
  intro i a v ha hv
  simp only [List.getElem?_map, ha, Option.map_some, Option.some.injEq] at hv
  rw [← hv]; exact givenBy_varOf a

/-- Non-vacuity of C32: values may contain equals signs or be empty. -/
example : ∃ f, parseGen {} (vArgs [g!"a=b=c", g!"off", g!"e=", g!"a=2"]) = .ok (f, []) ∧
    f.vars = [⟨g!"a", .text g!"b=c"⟩, ⟨g!"off", .flag⟩, ⟨g!"e", .text []⟩, ⟨g!"a", .text g!"2"⟩] ∧
    varsMap f.vars g!"a" = some (.text g!"2") := ⟨_, rfl, rfl, rfl⟩

end Gowrap.Props
