import Verif.Props.Vars
import Verif.Spec.Flags
/-!
# The gen command's flags follow the grammar of `Spec/Flags`
-/

namespace Gowrap.Props

open Gowrap Spec

/-- The flags of the gen command. -/
def GenFlag (name : Str) : Prop := name ∈ [g!"g", g!"i", g!"p", g!"o", g!"t", g!"v", g!"l"]

/-- Its only boolean flag. -/
def GenBool (name : Str) : Prop := name = g!"g"

/-- What the assignments say about the fields of the command. -/
structure Means (as : List (Str × Str)) (f : GenFlags) : Prop where
  bools : ∀ v, (g!"g", v) ∈ as → ∃ b, BoolText v b
  noGenerate : (∃ v, lastAssigned g!"g" as = some v ∧ BoolText v f.noGenerate) ∨
    (lastAssigned g!"g" as = none ∧ f.noGenerate = false)
  interfaceName : f.interfaceName = (lastAssigned g!"i" as).getD []
  sourcePkg : f.sourcePkg = (lastAssigned g!"p" as).getD []
  outputFile : f.outputFile = (lastAssigned g!"o" as).getD []
  template : f.template = (lastAssigned g!"t" as).getD []
  localPrefix : f.localPrefix = (lastAssigned g!"l" as).getD []
  vars : f.vars = (allAssigned g!"v" as).map varOf

/-- The arguments set the fields like this. -/
def GivesFlags (args : List Str) (f : GenFlags) (rest : List Str) : Prop :=
  ∃ as, Assigns GenFlag GenBool args as rest ∧ Means as f

/-! ### The form of an argument -/

theorem splitEq_none : ∀ {s : Str}, '=' ∉ s → splitEq s = (s, none)
  | [], _ => rfl
  | c :: cs, h => by
    rw [List.mem_cons, not_or] at h
    rw [splitEq, if_neg (Ne.symm h.1), splitEq_none h.2]

theorem splitEq_some : ∀ {s : Str} (v : Str), '=' ∉ s → splitEq (s ++ '=' :: v) = (s, some v)
  | [], v, _ => by simp [splitEq]
  | c :: cs, v, h => by
    rw [List.mem_cons, not_or] at h
    rw [List.cons_append, splitEq, if_neg (Ne.symm h.1), splitEq_some v h.2]

/-- The text of a flag with its value. -/
def flagText (name : Str) : Option Str → Str
  | none => name
  | some v => name ++ '=' :: v

theorem splitFlag_text {name : Str} (h : FlagWord name) (value : Option Str) :
    splitFlag (flagText name value) = (name, value) := by
  obtain ⟨h1, h2, h3⟩ := h
  cases name with
  | nil => exact absurd rfl h1
  | cons c cs =>
    rw [List.mem_cons, not_or] at h3
    cases value with
    | none => simp [flagText, splitFlag, splitEq_none h3.2]
    | some v => simp [flagText, splitFlag, splitEq_some v h3.2]

theorem flagTok_dashed {s name : Str} {value : Option Str} (hd : Dashed s (flagText name value))
    (hw : FlagWord name) : flagTok s = .flag name value := by
  have hs := splitFlag_text hw value
  obtain ⟨c, cs, hc, h1, h2⟩ : ∃ c cs, flagText name value = c :: cs ∧ c ≠ '-' ∧ c ≠ '=' := by
    obtain ⟨h1, h2, h3⟩ := hw
    cases name with
    | nil => exact absurd rfl h1
    | cons c cs =>
      rw [List.mem_cons, not_or] at h3
      cases value with
      | none => exact ⟨c, cs, rfl, by simpa using h2, Ne.symm h3.1⟩
      | some v => exact ⟨c, cs ++ '=' :: v, rfl, by simpa using h2, Ne.symm h3.1⟩
  rw [hc] at hd hs
  cases hd with
  | one =>
    unfold flagTok
    split
    · rename_i heq
      simp only [List.cons.injEq] at heq
      exact absurd heq.2.1 h1
    · rename_i heq
      simp only [List.cons.injEq, true_and] at heq
      obtain ⟨rfl, rfl⟩ := heq
      rw [if_neg h2, hs]
    · rename_i h3 h4
      exact absurd rfl (h4 c cs)
  | two =>
    show (if c = '-' ∨ c = '=' then _ else _) = _
    rw [if_neg (by rw [not_or]; exact ⟨h1, h2⟩), hs]

theorem splitFlag_spec {c : Char} {cs : Str} (h1 : c ≠ '-') (h2 : c ≠ '=') :
    FlagWord (splitFlag (c :: cs)).1 ∧ c :: cs = flagText (splitFlag (c :: cs)).1 (splitFlag (c :: cs)).2 := by
  have h := splitEq_spec cs
  unfold splitFlag
  refine ⟨⟨by simp, by simpa using h1, ?_⟩, ?_⟩
  · simp only [List.mem_cons, not_or]; exact ⟨Ne.symm h2, h.1⟩
  · cases hs : (splitEq cs).2 with
    | none => rw [hs] at h; simpa [flagText] using h.2
    | some v => rw [hs] at h; simpa [flagText] using h.2

/-- Every argument has one of the forms. -/
theorem flagTok_spec (s : Str) :
    (flagTok s = .stop ∧ Positional s) ∨ (flagTok s = .terminator ∧ s = g!"--") ∨
    (∃ e, flagTok s = .bad e) ∨
    (∃ name value, flagTok s = .flag name value ∧ Dashed s (flagText name value) ∧ FlagWord name) := by
  match s with
  | [] => exact Or.inl ⟨rfl, Or.inr (by simp)⟩
  | [c] =>
    by_cases hc : c = '-'
    · subst hc; exact Or.inl ⟨rfl, Or.inl rfl⟩
    · refine Or.inl ⟨?_, Or.inr (by simpa using hc)⟩
      unfold flagTok
      split
      · rename_i heq; simp at heq
      · rename_i heq; simp at heq
      · rfl
  | c :: d :: rest =>
    by_cases hc : c = '-'
    · subst hc
      by_cases hd : d = '-'
      · subst hd
        cases rest with
        | nil => exact Or.inr (Or.inl ⟨rfl, rfl⟩)
        | cons e rest =>
          by_cases he : e = '-' ∨ e = '='
          · exact Or.inr (Or.inr (Or.inl ⟨_, by show (if e = '-' ∨ e = '=' then _ else _) = _; rw [if_pos he]⟩))
          · have := splitFlag_spec (cs := rest) (fun h => he (Or.inl h)) (fun h => he (Or.inr h))
            refine Or.inr (Or.inr (Or.inr ⟨_, (splitFlag (e :: rest)).2, ?_, ?_, this.1⟩))
            · show (if e = '-' ∨ e = '=' then _ else _) = _
              rw [if_neg he]
            · rw [← this.2]; exact .two _
      · by_cases he : d = '='
        · subst he
          exact Or.inr (Or.inr (Or.inl ⟨_, rfl⟩))
        · have := splitFlag_spec (cs := rest) hd he
          refine Or.inr (Or.inr (Or.inr ⟨_, (splitFlag (d :: rest)).2, ?_, ?_, this.1⟩))
          · unfold flagTok
            split
            · rename_i heq
              simp only [List.cons.injEq] at heq
              exact absurd heq.2.1 hd
            · rename_i heq
              simp only [List.cons.injEq, true_and] at heq
              obtain ⟨rfl, rfl⟩ := heq
              rw [if_neg he]
            · rename_i h3 h4
              exact absurd rfl (h4 _ _)
          · rw [← this.2]; exact .one _
    · refine Or.inl ⟨?_, Or.inr (by simpa using hc)⟩
      unfold flagTok
      split
      · rename_i heq; simp only [List.cons.injEq] at heq; exact absurd heq.1 hc
      · rename_i heq; simp only [List.cons.injEq] at heq; exact absurd heq.1 hc
      · rfl

theorem flagTok_positional {s : Str} (h : Positional s) : flagTok s = .stop := by
  rcases flagTok_spec s with ⟨h1, _⟩ | ⟨_, h2⟩ | ⟨e, h1⟩ | ⟨n, v, _, hd, hw⟩
  · exact h1
  · subst h2
    rcases h with h | h
    · exact absurd h (by decide)
    · exact absurd rfl h
  · rcases h with h | h
    · subst h; cases h1
    · unfold flagTok at h1
      split at h1
      · exact absurd rfl h
      · exact absurd rfl h
      · cases h1
  · rcases h with h | h
    · subst h
      cases n with
      | nil => exact absurd rfl hw.1
      | cons c cs => cases v <;> cases hd
    · cases hd <;> exact absurd rfl h

/-! ### Assignments -/

theorem flagNamed_iff (name : Str) : (∃ n, flagNamed name = some n) ↔ GenFlag name := by
  unfold flagNamed GenFlag
  simp only [List.mem_cons, List.not_mem_nil, or_false]
  constructor
  · rintro ⟨n, h⟩
    repeat' split at h
    all_goals first | (simp [*]; done) | cases h
  · rintro (rfl | rfl | rfl | rfl | rfl | rfl | rfl)
    · exact ⟨.g, rfl⟩
    · exact ⟨.i, rfl⟩
    · exact ⟨.p, rfl⟩
    · exact ⟨.o, rfl⟩
    · exact ⟨.t, rfl⟩
    · exact ⟨.v, rfl⟩
    · exact ⟨.l, rfl⟩

theorem flagNamed_g {name : Str} : flagNamed name = some .g ↔ GenBool name := by
  unfold flagNamed GenBool
  constructor
  · intro h
    repeat' split at h
    all_goals first | assumption | cases h
  · rintro rfl; rfl

theorem parseBool_iff (s : Str) (b : Bool) : parseBool s = some b ↔ BoolText s b := by
  unfold parseBool
  constructor
  · intro h
    split at h
    · cases h; exact .yes s (by simpa using ‹_›)
    · split at h
      · cases h; exact .no s (by simpa using ‹_›)
      · cases h
  · intro h
    cases h with
    | yes h => rw [if_pos (by simpa using h)]
    | no h =>
      rw [if_neg, if_pos (by simpa using h)]
      simp only [List.mem_cons, List.not_mem_nil, or_false] at h
      rcases h with rfl | rfl | rfl | rfl | rfl | rfl <;> decide

/-- One assignment. -/
def assign (f : GenFlags) (a : Str × Str) : GenFlags :=
  match flagNamed a.1 with
  | none => f
  | some .g => { f with noGenerate := (parseBool a.2).getD false }
  | some n => setFlag f n a.2

/-- Every value of the boolean flag is one. -/
def BoolsOk (as : List (Str × Str)) : Prop := ∀ v, (g!"g", v) ∈ as → ∃ b, BoolText v b

theorem parseGen_sound : ∀ (n : Nat) (f : GenFlags) (args : List Str), args.length ≤ n → ∀ f' rest,
    parseGen f args = .ok (f', rest) →
    ∃ as, Assigns GenFlag GenBool args as rest ∧ BoolsOk as ∧ f' = as.foldl assign f := by
  intro n
  induction n with
  | zero =>
    intro f args hl f' rest h
    have : args = [] := by simpa using hl
    subst this
    cases h
    exact ⟨[], .done, (by intro v hv; cases hv), rfl⟩
  | succ n ih =>
    intro f args hl f' rest h
    cases args with
    | nil =>
      cases h
      exact ⟨[], .done, (by intro v hv; cases hv), rfl⟩
    | cons s args =>
      have hl' : args.length ≤ n := by simpa using hl
      rw [parseGen] at h
      rcases flagTok_spec s with ⟨h1, h2⟩ | ⟨h1, h2⟩ | ⟨e, h1⟩ | ⟨name, value, h1, hd, hw⟩
      · rw [h1] at h
        cases h
        exact ⟨[], .positional s args h2, (by intro v hv; cases hv), rfl⟩
      · rw [h1] at h
        cases h
        subst h2
        exact ⟨[], .terminator _, (by intro v hv; cases hv), rfl⟩
      · rw [h1] at h; cases h
      · rw [h1] at h
        simp only at h
        cases hn : flagNamed name with
        | none => rw [hn] at h; simp only at h; split at h <;> cases h
        | some fn =>
          have hk : GenFlag name := (flagNamed_iff name).1 ⟨fn, hn⟩
          rw [hn] at h
          by_cases hg : fn = .g
          · subst hg
            have hb : GenBool name := flagNamed_g.1 hn
            simp only at h
            cases hp : parseBool (value.getD g!"true") with
            | none => rw [hp] at h; cases h
            | some b =>
              rw [hp] at h
              obtain ⟨as, ha, hbo, rfl⟩ := ih _ args hl' f' rest h
              refine ⟨(name, value.getD g!"true") :: as, ?_, ?_, ?_⟩
              · cases value with
                | none => exact .alone s name args as rest hd hw hk hb ha
                | some v => exact .joined s name v args as rest hd hw hk ha
              · intro v hv
                rcases List.mem_cons.1 hv with hv | hv
                · rw [Prod.mk.injEq] at hv
                  rw [hv.2]; exact ⟨b, (parseBool_iff _ _).1 hp⟩
                · exact hbo v hv
              · rw [List.foldl_cons]
                congr 1
                simp only [assign, hn, hp, Option.getD_some]
          · have hnb : ¬ GenBool name := fun hb => by
              rw [flagNamed_g.2 hb] at hn; cases hn; exact hg rfl
            have hbo' : ∀ (v : Str) as, BoolsOk as → BoolsOk ((name, v) :: as) := by
              intro v as hbo x hx
              rcases List.mem_cons.1 hx with hx | hx
              · rw [Prod.mk.injEq] at hx
                exact absurd hx.1.symm hnb
              · exact hbo x hx
            have has : ∀ v, assign f (name, v) = setFlag f fn v := by
              intro v
              simp only [assign, hn]
              all_goals (cases fn <;> first | rfl | exact absurd rfl hg)
            have hstep : ∀ (v : Str) (more : List Str), more.length ≤ n →
                parseGen (setFlag f fn v) more = .ok (f', rest) →
                ∃ as, Assigns GenFlag GenBool more as rest ∧ BoolsOk ((name, v) :: as) ∧
                  f' = ((name, v) :: as).foldl assign f := by
              intro v more hm hpm
              obtain ⟨as, ha, hbo, hf⟩ := ih _ more hm f' rest hpm
              exact ⟨as, ha, hbo' v as hbo, by rw [List.foldl_cons, has v]; exact hf⟩
            cases value with
            | some v =>
              have h' : parseGen (setFlag f fn v) args = .ok (f', rest) := by
                cases fn <;> first | exact h | exact absurd rfl hg
              obtain ⟨as, ha, hbo, hf⟩ := hstep v args hl' h'
              exact ⟨_, .joined s name v args as rest hd hw hk ha, hbo, hf⟩
            | none =>
              cases args with
              | nil => cases fn <;> first | exact absurd rfl hg | cases h
              | cons v more =>
                have h' : parseGen (setFlag f fn v) more = .ok (f', rest) := by
                  cases fn <;> first | exact h | exact absurd rfl hg
                obtain ⟨as, ha, hbo, hf⟩ := hstep v more (by simp at hl'; omega) h'
                exact ⟨_, .separate s name v more as rest hd hw hk hnb ha, hbo, hf⟩

theorem parseGen_complete {args : List Str} {as : List (Str × Str)} {rest : List Str}
    (h : Assigns GenFlag GenBool args as rest) : ∀ (f : GenFlags), BoolsOk as →
    parseGen f args = .ok (as.foldl assign f, rest) := by
  have tail : ∀ {a : Str × Str} {as : List (Str × Str)}, BoolsOk (a :: as) → BoolsOk as :=
    fun h v hv => h v (List.mem_cons_of_mem _ hv)
  induction h with
  | done => intro f _; rfl
  | positional s args hp => intro f _; rw [parseGen, flagTok_positional hp]; rfl
  | terminator args => intro f _; rfl
  | joined s name value args as rest hd hw hk _ ih =>
    intro f hb
    obtain ⟨fn, hn⟩ := (flagNamed_iff name).2 hk
    rw [parseGen, flagTok_dashed (value := some value) hd hw]
    simp only [hn, List.foldl_cons, assign]
    cases fn <;> simp only
    case g =>
      have hname : name = g!"g" := flagNamed_g.1 hn
      obtain ⟨b, hbt⟩ := hb value (by rw [hname]; simp)
      rw [show (some value).getD g!"true" = value from rfl, (parseBool_iff _ _).2 hbt]
      simp only [Option.getD_some]
      exact ih _ (tail hb)
    all_goals exact ih _ (tail hb)
  | alone s name args as rest hd hw hk hbool _ ih =>
    intro f hb
    have hn : flagNamed name = some .g := flagNamed_g.2 hbool
    rw [parseGen, flagTok_dashed (value := none) hd hw]
    simp only [hn, List.foldl_cons, assign]
    rw [show (none : Option Str).getD g!"true" = g!"true" from rfl,
      show parseBool g!"true" = some true from rfl]
    simp only [Option.getD_some]
    exact ih _ (tail hb)
  | separate s name value args as rest hd hw hk hbool _ ih =>
    intro f hb
    obtain ⟨fn, hn⟩ := (flagNamed_iff name).2 hk
    rw [parseGen, flagTok_dashed (value := none) hd hw]
    simp only [hn, List.foldl_cons, assign]
    cases fn <;> simp only
    case g => exact absurd (flagNamed_g.1 hn) hbool
    all_goals exact ih _ (tail hb)

/-! ### What the assignments mean -/

theorem lastAssigned_nil (n : Str) : lastAssigned n [] = none := rfl

theorem lastAssigned_snoc (n : Str) (as : List (Str × Str)) (a : Str × Str) :
    lastAssigned n (as ++ [a]) = if a.1 = n then some a.2 else lastAssigned n as := by
  unfold lastAssigned
  rw [List.filter_append]
  by_cases h : a.1 = n
  · simp [h, List.filter_cons]
  · simp [h, List.filter_cons]

theorem allAssigned_snoc (n : Str) (as : List (Str × Str)) (a : Str × Str) :
    allAssigned n (as ++ [a]) = allAssigned n as ++ if a.1 = n then [a.2] else [] := by
  unfold allAssigned
  rw [List.filter_append, List.map_append]
  by_cases h : a.1 = n
  · simp [h, List.filter_cons]
  · simp [h, List.filter_cons]

theorem means_foldl (as : List (Str × Str)) (hk : ∀ a ∈ as, GenFlag a.1) (hb : BoolsOk as) :
    Means as (as.foldl assign {}) := by
  suffices h : ∀ (n : Nat) (as : List (Str × Str)), as.length = n → (∀ a ∈ as, GenFlag a.1) → BoolsOk as →
      Means as (as.foldl assign {}) from h _ as rfl hk hb
  intro n
  induction n with
  | zero =>
    intro as hl _ _
    have : as = [] := by simpa using hl
    subst this
    exact ⟨(by intro v hv; cases hv), Or.inr ⟨rfl, rfl⟩, rfl, rfl, rfl, rfl, rfl, rfl⟩
  | succ n ih =>
    intro as hl hk hb
    rcases List.eq_nil_or_concat as with rfl | ⟨ini, a, rfl⟩
    · simp at hl
    · rw [List.concat_eq_append] at *
      have hm := ih ini (by simpa using hl) (fun x hx => hk x (by simp [hx])) (fun v hv => hb v (by simp [hv]))
      rw [List.foldl_append, List.foldl_cons, List.foldl_nil]
      obtain ⟨name, value⟩ := a
      have hkn := hk (name, value) (by simp)
      generalize ini.foldl assign {} = f at hm ⊢
      simp only [GenFlag, List.mem_cons, List.not_mem_nil, or_false] at hkn
      have hb' := hb
      obtain ⟨m1, m2, m3, m4, m5, m6, m7, m8⟩ := hm
      rcases hkn with h | h | h | h | h | h | h
      · subst h
        obtain ⟨b, hbt⟩ := hb value (by simp)
        have hpb := (parseBool_iff _ _).2 hbt
        refine ⟨hb, Or.inl ⟨value, by rw [lastAssigned_snoc, if_pos rfl], ?_⟩, ?_, ?_, ?_, ?_, ?_, ?_⟩
        · show BoolText value ((parseBool value).getD false)
          rw [hpb]; exact hbt
        all_goals first
          | (rw [lastAssigned_snoc, if_neg (by simp)]; assumption)
          | (rw [allAssigned_snoc, if_neg (by simp), List.append_nil]; assumption)
      all_goals
        subst h
        refine ⟨hb, ?_, ?_, ?_, ?_, ?_, ?_, ?_⟩
        · rw [lastAssigned_snoc, if_neg (by simp)]; exact m2
        all_goals first
          | (rw [lastAssigned_snoc, if_neg (by simp)]; assumption)
          | (rw [allAssigned_snoc, if_neg (by simp), List.append_nil]; assumption)
          | (rw [lastAssigned_snoc, if_pos rfl]; rfl)
          | (rw [allAssigned_snoc, if_pos rfl, List.map_append]
             show f.vars ++ [varOf value] = _
             rw [m8]; rfl)

theorem means_unique {as : List (Str × Str)} {f f' : GenFlags} (h : Means as f) (h' : Means as f') : f = f' := by
  obtain ⟨_, a2, a3, a4, a5, a6, a7, a8⟩ := h
  obtain ⟨_, b2, b3, b4, b5, b6, b7, b8⟩ := h'
  have hg : f.noGenerate = f'.noGenerate := by
    rcases a2 with ⟨v, hv, ha⟩ | ⟨hv, ha⟩ <;> rcases b2 with ⟨w, hw, hb⟩ | ⟨hw, hb⟩
    · rw [hv] at hw; cases hw
      have := ((parseBool_iff _ _).2 ha).symm.trans ((parseBool_iff _ _).2 hb)
      exact Option.some.inj this
    · rw [hv] at hw; cases hw
    · rw [hv] at hw; cases hw
    · rw [ha, hb]
  cases f; cases f'
  simp only at *
  subst a3 a4 a5 a6 a7 a8 b3 b4 b5 b6 b7 b8 hg
  rfl

theorem assigns_known {args : List Str} {as : List (Str × Str)} {rest : List Str}
    (h : Assigns GenFlag GenBool args as rest) : ∀ a ∈ as, GenFlag a.1 := by
  induction h with
  | done => intro a ha; cases ha
  | positional => intro a ha; cases ha
  | terminator => intro a ha; cases ha
  | joined s name value args as rest _ _ hk _ ih =>
    intro a ha
    rcases List.mem_cons.1 ha with rfl | ha
    · exact hk
    · exact ih a ha
  | alone s name args as rest _ _ hk _ _ ih =>
    intro a ha
    rcases List.mem_cons.1 ha with rfl | ha
    · exact hk
    · exact ih a ha
  | separate s name value args as rest _ _ hk _ _ ih =>
    intro a ha
    rcases List.mem_cons.1 ha with rfl | ha
    · exact hk
    · exact ih a ha

/-- **C35**, the flags: the parser accepts exactly the command lines of the grammar, and gives every field
the value that was assigned last. -/
theorem C35_flags (args : List Str) (f : GenFlags) (rest : List Str) :
    parseGen {} args = .ok (f, rest) ↔ GivesFlags args f rest := by
  constructor
  · intro h
    obtain ⟨as, ha, hb, rfl⟩ := parseGen_sound _ {} args (Nat.le_refl _) f rest h
    exact ⟨as, ha, means_foldl as (assigns_known ha) hb⟩
  · rintro ⟨as, ha, hm⟩
    rw [parseGen_complete ha {} hm.bools,
      means_unique hm (means_foldl as (assigns_known ha) hm.bools)]

/-- Non-vacuity of `C35_flags`. -/
example : GivesFlags [g!"-g", g!"--i=A=B", g!"-o", g!"-x", g!"-v", g!"a", g!"--v=b=", g!"-i", g!"I", g!"rest"]
    ⟨true, g!"I", [], g!"-x", [], [⟨g!"a", .flag⟩, ⟨g!"b", .text []⟩], []⟩ [g!"rest"] :=
  (C35_flags _ _ _).1 rfl

example : ¬ ∃ f rest, GivesFlags [g!"-g=maybe"] f rest := by
  rintro ⟨f, rest, h⟩
  have := (C35_flags _ _ _).2 h
  cases this

end Gowrap.Props
