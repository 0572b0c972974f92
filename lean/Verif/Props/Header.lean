import Verif.Props.GenCommand
import Verif.Proofs.Path
import Verif.Spec.GoGenerate
/-!
# Properties of template variables and of the generated header (C32, C33, C37)
-/

namespace Gowrap.Props

open Gowrap Spec

/-! ## C32, the round trip -/

/-! ### Splitting -/

theorem split_plain (unq : Str → Option Str) : ∀ (w acc rest : Str), (∀ c ∈ w, blank c = false) →
    split unq (.plain acc) (w ++ ' ' :: rest) = (split unq .between rest).map ((acc ++ w) :: ·)
  | [], acc, rest, _ => by
    rw [List.nil_append, split, if_pos (by decide), List.append_nil]
  | c :: w, acc, rest, h => by
    rw [List.cons_append, split, if_neg (by rw [h c (by simp)]; decide),
      split_plain unq w (acc ++ [c]) rest fun x hx => h x (by simp [hx])]
    simp

theorem split_word (unq : Str → Option Str) {w : Str} (hw : Plain w) (rest : Str) :
    split unq .between (w ++ ' ' :: rest) = (split unq .between rest).map (w :: ·) := by
  obtain ⟨h0, hq, hb⟩ := hw
  cases w with
  | nil => exact absurd rfl h0
  | cons c w =>
    have hq' : ¬ c = '"' := by simpa using hq
    rw [List.cons_append, split, if_neg (by rw [(hb c (by simp)).1]; decide), if_neg hq',
      split_plain unq w [c] rest fun x hx => (hb x (by simp [hx])).1]
    rfl

theorem split_quoted (unq : Str → Option Str) : ∀ (w acc : Str), (∀ c ∈ w, c ≠ '"' ∧ c ≠ '\\') →
    '\\' ∉ acc → split unq (.quoted acc) (w ++ g!"\"") = some [acc ++ w]
  | [], acc, _, ha => by
    rw [List.nil_append, split, if_pos rfl]
    simp [Spec.unquote, ha, split]
  | c :: w, acc, h, ha => by
    have hc := h c (by simp)
    rw [List.cons_append, split, if_neg hc.1, if_neg hc.2,
      split_quoted unq w (acc ++ [c]) (fun x hx => h x (by simp [hx])) ?_]
    · simp
    · simp only [List.mem_append, List.mem_singleton, not_or]
      exact ⟨ha, fun h => hc.2 h.symm⟩

theorem split_last (unq : Str → Option Str) {l : Str} (hl : Quotable l) :
    split unq .between (g!"\"" ++ l ++ g!"\"") = some [l] := by
  rw [List.append_assoc, List.singleton_append, split, if_neg (by decide), if_pos rfl,
    split_quoted unq l [] (fun c hc => ⟨(hl c hc).1, (hl c hc).2.1⟩) (by simp)]
  simp

theorem split_vars (unq : Str → Option Str) (as : List Str) (hp : ∀ a ∈ as, Plain a) (rest : Str) :
    split unq .between (varsToArgs (as.map varOf) ++ ' ' :: rest) =
      (split unq .between rest).map (vArgs as ++ ·) := by
  have hv : Plain g!"-v" := by
    refine ⟨by decide, by decide, by decide⟩
  have hblank : ∀ x, split unq .between (' ' :: x) = split unq .between x := fun x => by
    rw [split, if_pos (by decide)]
  have hmap : (as.map varOf).map varArg = as := by
    rw [List.map_map]
    conv => rhs; rw [← List.map_id as]
    apply List.map_congr_left
    intro a _; exact varArg_varOf a
  have hjoin : ∀ (l : List Str), (∀ a ∈ l, Plain a) → l ≠ [] →
      split unq .between (g!" -v " ++ join g!" -v " l ++ ' ' :: rest) =
        (split unq .between rest).map (vArgs l ++ ·) := by
    intro l
    induction l with
    | nil => intro _ h; exact absurd rfl h
    | cons a l ih =>
      intro hl _
      have ha := hl a (by simp)
      have e1 : ∀ x, split unq .between (g!" -v " ++ x) = (split unq .between x).map (g!"-v" :: ·) := by
        intro x
        show split unq .between (' ' :: (g!"-v" ++ ' ' :: x)) = _
        rw [hblank, split_word unq hv]
      cases l with
      | nil =>
        show split unq .between (g!" -v " ++ a ++ ' ' :: rest) = _
        rw [List.append_assoc, e1, split_word unq ha, Option.map_map]
        rfl
      | cons b l =>
        show split unq .between (g!" -v " ++ (a ++ g!" -v " ++ join g!" -v " (b :: l)) ++ ' ' :: rest) = _
        have ih' := ih (fun x hx => hl x (by simp [hx])) (by simp)
        have e2 : g!" -v " ++ (a ++ g!" -v " ++ join g!" -v " (b :: l)) ++ ' ' :: rest =
            g!" -v " ++ (a ++ ' ' :: (g!"-v " ++ join g!" -v " (b :: l) ++ ' ' :: rest)) := by
          simp
        have e3 : split unq .between (g!"-v " ++ join g!" -v " (b :: l) ++ ' ' :: rest) =
            (split unq .between rest).map (vArgs (b :: l) ++ ·) := by
          rw [← hblank, ← ih']; rfl
        rw [e2, e1, split_word unq ha, e3, Option.map_map, Option.map_map]
        rfl
  unfold varsToArgs
  split
  · rename_i h0
    have : as = [] := by simpa using h0
    subst this
    rw [List.nil_append, hblank]
    simp [vArgs]
  · rename_i h0
    rw [hmap]
    exact hjoin as hp (by rintro rfl; simp at h0)

/-- **C32**, round trip: if every `-v` argument is a plain text (not empty, without blanks, newlines,
dollar signs and without a double quote at the beginning), rendering the variables with `varsToArgs`,
splitting the text into arguments and parsing them gives the same variables.  Missing for the full claim:
other arguments, see `C32_full_false`. -/
theorem C32_round_trip_partial (as : List Str) (hp : ∀ a ∈ as, Plain a) (unq : Str → Option Str) :
    ∃ args, split unq .between (varsToArgs (as.map varOf) ++ g!" ") = some args ∧
      ∃ f, parseGen {} args = .ok (f, []) ∧ f.vars = as.map varOf := by
  have h := split_vars unq as hp []
  have hb : split unq .between [] = some [] := by simp [split]
  rw [hb] at h
  refine ⟨vArgs as, by simpa using h, ?_⟩
  have h2 := parseGen_vArgs as {} []
  rw [List.append_nil] at h2
  exact ⟨_, by rw [h2]; rfl, by simp⟩

/-- The full claim C32: the round trip works for all arguments. -/
def C32_full : Prop := ∀ (as : List Str) (unq : Str → Option Str),
  ∃ args, split unq .between (varsToArgs (as.map varOf) ++ g!" ") = some args ∧
    ∃ f, parseGen {} args = .ok (f, []) ∧ f.vars = as.map varOf

/-- `-v "msg=hello world"` does not survive. -/
theorem C32_full_false : ¬ C32_full := by
  intro h
  obtain ⟨args, h1, f, h2, h3⟩ := h [g!"m=a b"] (fun _ => none)
  have : args = [g!"-v", g!"m=a", g!"b"] := by
    have h4 : split (fun _ => none) .between (varsToArgs ([g!"m=a b"].map varOf) ++ g!" ") =
      some [g!"-v", g!"m=a", g!"b"] := rfl
    rw [h4] at h1
    exact (Option.some.inj h1).symm
  subst this
  have h5 : parseGen {} [g!"-v", g!"m=a", g!"b"] = .ok ({ vars := [⟨g!"m", .text g!"a"⟩] }, [g!"b"]) := rfl
  rw [h5] at h2
  cases h2

example : ∀ a ∈ [g!"a=b=c", g!"off", g!"e="], Plain a := by
  unfold Plain; decide

/-! ## C37 -/

theorem run_loadTemplate {s : Sys} {f : GenFlags} {d : Str} {h h' : List Ev} {body : Bytes} {ref : Str}
    (hl : s.loadTemplate f d h = (.ok (body, ref), h')) :
    ∃ url, s.loaderLoad f.template h = (.ok (body, url), h') ∧
      (g!"https://" <+: url ∧ ref = url ∨
        ¬ g!"https://" <+: url ∧ relPath d (absPath s.cwd url) = some ref) := by
  unfold Sys.loadTemplate at hl
  rw [Act.run_bind] at hl
  cases hr : s.loaderLoad f.template h with
  | mk r h1 =>
    rw [hr] at hl
    cases r with
    | error e => cases hl
    | ok p =>
      obtain ⟨b, url⟩ := p
      simp only at hl
      split at hl
      · rename_i hp
        simp only [Act.run_pure, Prod.mk.injEq, Except.ok.injEq] at hl
        obtain ⟨⟨rfl, rfl⟩, rfl⟩ := hl
        exact ⟨url, rfl, Or.inl ⟨(hasPrefix_iff _ _).1 hp, rfl⟩⟩
      · rename_i hp
        cases hrel : relPath d (absPath s.cwd url) with
        | none => rw [hrel] at hl; simp at hl
        | some r =>
          rw [hrel] at hl
          simp only [Act.run_pure, Prod.mk.injEq, Except.ok.injEq] at hl
          obtain ⟨⟨rfl, rfl⟩, rfl⟩ := hl
          exact ⟨url, rfl, Or.inr ⟨fun h => hp ((hasPrefix_iff _ _).2 h), hrel⟩⟩

theorem dirPart_append {d name : Str} (hn : '/' ∉ name) (hd : d = [] ∨ d.getLast? = some '/') :
    dirPart (d ++ name) = d := by
  unfold dirPart
  rw [List.reverse_append, List.dropWhile_append_of_pos]
  · rcases hd with rfl | hd
    · simp
    · rw [List.getLast?_eq_some_iff] at hd
      obtain ⟨ini, rfl⟩ := hd
      simp
  · intro c hc
    rw [List.mem_reverse] at hc
    simp only [decide_eq_true_eq]
    rintro rfl
    exact hn hc

/-- The absolute output directory used by `getOptions`. -/
theorem outputDir_eq {cwd : List Str} (hc : IsDir cwd) {d name : Str} (hn : '/' ∉ name)
    (hd : d = [] ∨ d.getLast? = some '/') :
    absPath cwd (dirPath (d ++ name)) = absText (locate cwd d) := by
  unfold absPath dirPath
  rw [dirPart_append hn hd, absElems_eq hc, locate_cleanPath]

/-- **C37**, for local templates and HTTPS URLs: the reference in the header is the URL of a template
fetched over HTTPS; for a local template it denotes, seen from the directory of the output file, the same
file as the path it was loaded from, seen from the working directory.  Missing for the full claim: plain
HTTP, see `C37_full_false`. -/
theorem C37_reference_partial (s : Sys) (hc : IsDir s.cwd) (f : GenFlags) (h h' : List Ev) (body : Bytes)
    (ref : Str) (d name : Str) (ho : f.outputFile = d ++ name) (hn : '/' ∉ name)
    (hd : d = [] ∨ d.getLast? = some '/')
    (hl : s.loadTemplate f (absPath s.cwd (dirPath f.outputFile)) h = (.ok (body, ref), h')) :
    ∃ url, s.loaderLoad f.template h = (.ok (body, url), h') ∧
      (g!"https://" <+: url → ref = url) ∧
      (¬ g!"https://" <+: url → ∀ dir loc, Denotes s.cwd d dir → Denotes s.cwd url loc →
        Denotes dir ref loc) := by
  obtain ⟨url, h1, h2⟩ := run_loadTemplate hl
  refine ⟨url, h1, ?_, ?_⟩
  · intro hp
    rcases h2 with ⟨_, h2⟩ | ⟨h2, _⟩
    · exact h2
    · exact absurd hp h2
  · intro hp dir loc hdir hloc
    rcases h2 with ⟨h2, _⟩ | ⟨_, h2⟩
    · exact absurd h2 hp
    · rw [denotes_iff] at hdir hloc ⊢
      subst hdir; subst hloc
      have hbd : IsDir (locate s.cwd d) := locate_dir hc d
      have htd : IsDir (locate s.cwd url) := locate_dir hc url
      rw [ho, outputDir_eq hc hn hd] at h2
      unfold absPath at h2
      rw [absElems_eq hc] at h2
      unfold relPath at h2
      rw [isAbs_absText, isAbs_absText, cleanPieces_absText hbd, cleanPieces_absText htd] at h2
      simp only [Bool.and_self, if_true, Option.some.injEq] at h2
      rw [← h2]
      exact (locate_relElems hbd htd).symm

/-- **C37**, the reference can always be computed: loading a template only fails if the loader does. -/
theorem C37_total (s : Sys) (f : GenFlags) (h h' : List Ev) (body : Bytes) (url : Str)
    (hl : s.loaderLoad f.template h = (.ok (body, url), h')) :
    ∃ ref, s.loadTemplate f (absPath s.cwd (dirPath f.outputFile)) h = (.ok (body, ref), h') := by
  unfold Sys.loadTemplate
  rw [Act.run_bind, hl]
  simp only
  split
  · exact ⟨_, rfl⟩
  · unfold relPath
    rw [absPath, absPath, isAbs_absText, isAbs_absText]
    exact ⟨_, rfl⟩

/-- The full claim C37 for templates fetched over HTTP(S). -/
def C37_full : Prop := ∀ (s : Sys) (f : GenFlags) (h h' : List Ev) (body : Bytes) (ref url : Str),
  s.loadTemplate f (absPath s.cwd (dirPath f.outputFile)) h = (.ok (body, ref), h') →
  s.loaderLoad f.template h = (.ok (body, url), h') → IsUrl url → ref = url

/-- A template fetched from `http://h/t` is referred to as `../http:/h/t`. -/
theorem C37_full_false : ¬ C37_full := by
  intro h
  have := h Demo.sys { template := g!"http://h/t", outputFile := g!"out/x.go" } []
    [.readFile g!"http://h/t", .request g!"http://h/t", .response 200, .readBody, .closeBody] [9]
    g!"../http:/h/t" g!"http://h/t" rfl rfl (Or.inr ⟨g!"h/t", rfl⟩)
  exact absurd this (by decide)

/-- Non-vacuity of C37: a local template. -/
example : ({ Demo.sys with net := { Demo.sys.net with readFile := fun _ _ => .contents [7] } } : Sys).loadTemplate
      { template := g!"../t/log", outputFile := g!"gen/out/x.go" } g!"/home/u/gen/out" [] =
    (.ok ([7], g!"../../../t/log"), [.readFile g!"../t/log"]) ∧
    IsDir Demo.sys.cwd ∧ Denotes Demo.sys.cwd g!"../t/log" [g!"home", g!"t", g!"log"] ∧
    Denotes [g!"home", g!"u", g!"gen", g!"out"] g!"../../../t/log" [g!"home", g!"t", g!"log"] := by
  refine ⟨rfl, ?_, ?_, ?_⟩
  · unfold IsDir IsName; decide
  · rw [denotes_iff]; rfl
  · rw [denotes_iff]; rfl

/-! ## C33 -/

theorem takeWhile_all {l : Str} (h : ∀ c ∈ l, c ≠ '\n') : l.takeWhile (· ≠ '\n') = l := by
  induction l with
  | nil => rfl
  | cons c l ih =>
    rw [List.takeWhile_cons, if_pos (by simpa using h c (by simp)), ih fun x hx => h x (by simp [hx])]

/-- Option values that survive. -/
structure Survives (o : GenOptions) (as : List Str) : Prop where
  package : Plain o.sourcePackage
  interfaceName : Plain o.interfaceName
  template : Plain o.template
  outputFileName : Plain o.outputFileName
  vars : ∀ a ∈ as, Plain a
  localPrefix : Quotable o.localPrefix

theorem plain_noNewline {w : Str} (h : Plain w) : ∀ c ∈ w, c ≠ '\n' := fun c hc => (h.2.2 c hc).2.1

theorem varsToArgs_chars (as : List Str) (P : Char → Prop) (hsp : P ' ') (hd : P '-') (hv : P 'v')
    (h : ∀ a ∈ as, ∀ c ∈ a, P c) : ∀ c ∈ varsToArgs (as.map varOf), P c := by
  have hmap : (as.map varOf).map varArg = as := by
    rw [List.map_map]
    conv => rhs; rw [← List.map_id as]
    apply List.map_congr_left
    intro a _; exact varArg_varOf a
  have hlit : ∀ c ∈ g!" -v ", P c := by
    intro c hc
    simp only [List.mem_cons, List.not_mem_nil, or_false] at hc
    rcases hc with rfl | rfl | rfl | rfl <;> assumption
  have hjoin : ∀ (l : List Str), (∀ a ∈ l, ∀ c ∈ a, P c) → ∀ c ∈ join g!" -v " l, P c := by
    intro l
    induction l with
    | nil => intro _ c hc; simp [join] at hc
    | cons a l ih =>
      intro hl
      cases l with
      | nil => exact hl a (by simp)
      | cons b l =>
        intro c hc
        simp only [join, List.mem_append] at hc
        rcases hc with (hc | hc) | hc
        · exact hl a (by simp) c hc
        · exact hlit c hc
        · exact ih (fun x hx => hl x (by simp [hx])) c hc
  unfold varsToArgs
  split
  · intro c hc; simp at hc
  · rw [hmap]
    intro c hc
    rcases List.mem_append.1 hc with hc | hc
    · exact hlit c hc
    · exact hjoin as h c hc

theorem expand_plain (exp : Str → Str) {w : Str} (h : ∀ c ∈ w, c ≠ '$') : expand exp w = w := by
  unfold expand
  rw [if_neg]
  intro hd; exact h _ hd rfl

/-- The arguments of the command in the header. -/
def rerunArgs (o : GenOptions) (as : List Str) : List Str :=
  [g!"-p", o.sourcePackage, g!"-i", o.interfaceName, g!"-t", o.template, g!"-o", o.outputFileName] ++
    vArgs as ++ [g!"-l", o.localPrefix]

theorem lit_plain : Plain g!"gowrap" ∧ Plain g!"gen" ∧ Plain g!"-p" ∧ Plain g!"-i" ∧ Plain g!"-t" ∧
    Plain g!"-o" ∧ Plain g!"-l" := by
  refine ⟨?_, ?_, ?_, ?_, ?_, ?_, ?_⟩ <;> exact ⟨by decide, by decide, by decide⟩

theorem command_generateLine (unq : Str → Option Str) (exp : Str → Str) (o : GenOptions) (as : List Str)
    (hv : o.varsArgs = varsToArgs (as.map varOf)) (hs : Survives o as) :
    command unq exp (generateLine o) = some (g!"gowrap" :: g!"gen" :: rerunArgs o as) := by
  have hline : ∀ c ∈ generateLine o, c ≠ '\n' := by
    have hlits : ∀ c ∈ g!"go:generate gowrap gen -p " ++ g!" -i " ++ g!" -t " ++ g!" -o " ++ g!" -l \"" ++
        g!"\"", c ≠ '\n' := by decide
    intro c hc
    unfold generateLine at hc
    simp only [List.mem_append] at hc hlits
    rw [hv] at hc
    rcases hc with ((((((((((hc | hc) | hc) | hc) | hc) | hc) | hc) | hc) | hc) | hc) | hc) | hc
    · exact hlits c (by simp [hc])
    · exact plain_noNewline hs.package c hc
    · exact hlits c (by simp [hc])
    · exact plain_noNewline hs.interfaceName c hc
    · exact hlits c (by simp [hc])
    · exact plain_noNewline hs.template c hc
    · exact hlits c (by simp [hc])
    · exact plain_noNewline hs.outputFileName c hc
    · exact varsToArgs_chars as (· ≠ '\n') (by decide) (by decide) (by decide)
        (fun a ha => plain_noNewline (hs.vars a ha)) c hc
    · exact hlits c (by simp [hc])
    · exact (hs.localPrefix c hc).2.2.1
    · exact hlits c (by simp [hc])
  unfold command
  rw [takeWhile_all hline]
  have hgl : generateLine o = g!"go:generate " ++ (g!"gowrap" ++ ' ' :: (g!"gen" ++ ' ' :: (g!"-p" ++ ' ' ::
      (o.sourcePackage ++ ' ' :: (g!"-i" ++ ' ' :: (o.interfaceName ++ ' ' :: (g!"-t" ++ ' ' ::
      (o.template ++ ' ' :: (g!"-o" ++ ' ' :: (o.outputFileName ++ (o.varsArgs ++ ' ' :: (g!"-l" ++ ' ' ::
      (g!"\"" ++ o.localPrefix ++ g!"\"")))))))))))))  := by
    unfold generateLine
    simp
  rw [hgl]
  simp only
  rw [if_pos (List.prefix_append _ _)]
  have hdrop : ∀ x : Str, (g!"go:generate " ++ x).drop 12 = x := fun x => rfl
  rw [hdrop]
  have hcr : ∀ x : Str, x.getLast? = some '"' → dropCR x = x := by
    intro x hx
    unfold dropCR
    rw [hx, if_neg (by decide)]
  rw [hcr _ (by simp [List.getLast?_append, List.getLast?_cons])]
  obtain ⟨l1, l2, l3, l4, l5, l6, l7⟩ := lit_plain
  have hout : ∀ x, split unq .between (o.outputFileName ++ (varsToArgs (as.map varOf) ++ ' ' :: x)) =
      (split unq .between x).map (fun ws => o.outputFileName :: (vArgs as ++ ws)) := by
    intro x
    have hva : ∃ y, varsToArgs (as.map varOf) ++ ' ' :: x = ' ' :: y ∧
        split unq .between y = (split unq .between x).map (vArgs as ++ ·) := by
      have h1 := split_vars unq as hs.vars x
      have hblank : ∀ x, split unq .between (' ' :: x) = split unq .between x := fun x => by
        rw [split, if_pos (by decide)]
      by_cases h0 : as = []
      · subst h0
        exact ⟨x, rfl, by simp [vArgs]⟩
      · have : ∃ y, varsToArgs (as.map varOf) ++ ' ' :: x = ' ' :: y := by
          unfold varsToArgs
          rw [if_neg (by simpa using h0)]
          exact ⟨_, rfl⟩
        obtain ⟨y, hy⟩ := this
        refine ⟨y, hy, ?_⟩
        rw [← hblank, ← hy]; exact h1
    obtain ⟨y, hy, hsy⟩ := hva
    rw [hy, split_word unq hs.outputFileName, hsy, Option.map_map]
    rfl
  rw [split_word unq l1, split_word unq l2, split_word unq l3, split_word unq hs.package,
    split_word unq l4, split_word unq hs.interfaceName, split_word unq l5, split_word unq hs.template,
    split_word unq l6, hv, hout, split_word unq l7, split_last unq hs.localPrefix]
  simp only [Option.map_some, Option.some.injEq]
  have hpl : ∀ {w : Str}, Plain w → expand exp w = w := fun h => expand_plain exp fun c hc => (h.2.2 c hc).2.2.2
  have hva : (vArgs as).map (expand exp) = vArgs as := by
    have : ∀ w ∈ vArgs as, expand exp w = w := by
      intro w hw
      unfold vArgs at hw
      rw [List.mem_flatMap] at hw
      obtain ⟨a, ha, hw⟩ := hw
      simp only [List.mem_cons, List.not_mem_nil, or_false] at hw
      rcases hw with rfl | rfl
      · exact hpl (by exact ⟨by decide, by decide, by decide⟩)
      · exact hpl (hs.vars _ ha)
    conv => rhs; rw [← List.map_id (vArgs as)]
    exact List.map_congr_left this
  simp only [rerunArgs, List.map_cons, List.map_append, List.map_nil, hva, hpl l1, hpl l2, hpl l3, hpl l4, hpl l5,
    hpl l6, hpl l7, hpl hs.package, hpl hs.interfaceName, hpl hs.template, hpl hs.outputFileName,
    expand_plain exp (fun c hc => (hs.localPrefix c hc).2.2.2.2)]
  simp

theorem parse_rerun (o : GenOptions) (as : List Str) : parseGen {} (rerunArgs o as) = .ok ({
    interfaceName := o.interfaceName, sourcePkg := o.sourcePackage, outputFile := o.outputFileName,
    template := o.template, vars := as.map varOf, localPrefix := o.localPrefix }, []) := by
  show parseGen _ (vArgs as ++ [g!"-l", o.localPrefix]) = _
  rw [parseGen_vArgs]
  rfl

theorem basePath_append {d name : Str} (hn : '/' ∉ name) (hne : name ≠ [])
    (hd : d = [] ∨ d.getLast? = some '/') : basePath (d ++ name) = name := by
  unfold basePath
  obtain ⟨c, rest, hr⟩ : ∃ c rest, name.reverse = c :: rest := by
    cases h : name.reverse with
    | nil => exact absurd (by simpa using h) hne
    | cons c rest => exact ⟨c, rest, rfl⟩
  have hc : c ≠ '/' := by
    rintro rfl
    exact hn (by rw [← List.mem_reverse, hr]; simp)
  have htrim : trimSlashes (d ++ name) = d ++ name := by
    unfold trimSlashes
    rw [List.reverse_append, hr, List.cons_append, List.dropWhile_cons_of_neg (by simpa using hc),
      ← List.cons_append, ← hr, ← List.reverse_append, List.reverse_reverse]
  rw [if_neg (by simp [hne]), htrim, if_neg (by simp [hne])]
  unfold filePart
  rw [List.reverse_append, List.takeWhile_append_of_pos]
  · rcases hd with rfl | hd
    · simp
    · rw [List.getLast?_eq_some_iff] at hd
      obtain ⟨ini, rfl⟩ := hd
      simp
  · intro x hx
    rw [List.mem_reverse] at hx
    simp only [decide_eq_true_eq]
    rintro rfl
    exact hn hx

/-- The reference of a file in a directory. -/
theorem locate_file {cwd : List Str} {d name : Str} (hn : '/' ∉ name) (hne : name ≠ [])
    (hd : d = [] ∨ d.getLast? = some '/') : locate (locate cwd d) name = locate cwd (d ++ name) := by
  have hnh : ¬ name.head? = some '/' := by
    cases name with
    | nil => exact absurd rfl hne
    | cons c cs => simp only [List.head?_cons, Option.some.injEq]; rintro rfl; exact hn (by simp)
  rcases hd with rfl | hd
  · rw [List.nil_append]
    simp [locate, pieces, walk, follow]
  · rw [List.getLast?_eq_some_iff] at hd
    obtain ⟨ini, rfl⟩ := hd
    have hp : ∀ (l : Str), pieces (l ++ ['/'] ++ name) = pieces l ++ [name] ∧
        pieces (l ++ ['/']) = pieces l ++ [[]] := by
      intro l
      have gen : ∀ (p : Str) (ws : List Str), Pieces p ws → ∀ x, pieces (p ++ '/' :: x) = ws ++ pieces x := by
        intro p ws hpw
        induction hpw with
        | one w hw => intro x; rw [pieces_cons w x hw]; rfl
        | cons w p ws hw _ ih =>
          intro x
          rw [List.append_assoc, List.cons_append, pieces_cons w _ hw, ih x]; rfl
      have := gen l _ (exists_pieces l)
      refine ⟨?_, ?_⟩
      · rw [List.append_assoc, List.singleton_append, this, pieces_noslash name hn]
      · rw [this]; rfl
    have hh : (ini ++ ['/'] ++ name).head? = (ini ++ ['/']).head? := by
      cases ini <;> rfl
    rw [locate, locate, locate, if_neg hnh, hh, (hp ini).1, (hp ini).2, pieces_noslash name hn,
      walk_append, walk_append]
    simp [walk, follow]

/-- **C33**, for option values without special characters: `go generate`, run on the generated comment
in the directory of the output file, executes `gowrap gen` with flags that parse to the same interface,
variables and local prefix, to the import path of the package that was loaded, to a path of the same
output file, and to a template reference which is the URL or denotes the same file.  Missing for the full
claim: values with blanks, quotes, dollar signs or line breaks, see `C33_full_false`. -/
theorem C33_rerun_partial (s : Sys) (hc : IsDir s.cwd) (f : GenFlags) (h h' : List Ev) (o : GenOptions)
    (hg : s.getOptions f h = (.ok o, h')) (as : List Str) (has : f.vars = as.map varOf)
    (hs : Survives o as) (d name : Str) (ho : f.outputFile = d ++ name) (hn : '/' ∉ name) (hne : name ≠ [])
    (hd : d = [] ∨ d.getLast? = some '/') (comment : Str) (hcom : headerComment o = some comment)
    (unq : Str → Option Str) (exp : Str → Str) :
    ∃ args f', command unq exp comment = some (g!"gowrap" :: g!"gen" :: args) ∧
      parseGen {} args = .ok (f', []) ∧
      f'.interfaceName = f.interfaceName ∧ f'.vars = f.vars ∧ f'.localPrefix = f.localPrefix ∧
      f'.noGenerate = f.noGenerate ∧
      (∃ h1 id, s.loadPackage h1 (if f.sourcePkg = [] then g!"./" else f.sourcePkg) = .ok (id, f'.sourcePkg)) ∧
      (∀ dir loc, Denotes s.cwd d dir → Denotes s.cwd f.outputFile loc → Denotes dir f'.outputFile loc) ∧
      (∃ url h1 h2, s.loaderLoad f.template h1 = (.ok (o.bodyTemplate, url), h2) ∧
        (g!"https://" <+: url → f'.template = url) ∧
        (¬ g!"https://" <+: url → ∀ dir loc, Denotes s.cwd d dir → Denotes s.cwd url loc →
          Denotes dir f'.template loc)) := by
  obtain ⟨h1, h2, h3, h4, h5, h6, h7, ⟨hp1, hp⟩, ⟨hl1, hl⟩⟩ := getOptions_ok hg
  have hcom' : o.disableGoGenerate = false ∧ comment = generateLine o := by
    unfold headerComment at hcom
    split at hcom
    · cases hcom
    · rename_i hd'
      exact ⟨by simpa using hd', by simpa using hcom.symm⟩
  obtain ⟨hdis, rfl⟩ := hcom'
  refine ⟨rerunArgs o as, _, command_generateLine unq exp o as (by rw [h5, has]) hs, parse_rerun o as, h1,
    has.symm, h7, by rw [← h3, hdis], ⟨hp1, _, hp⟩, ?_, ?_⟩
  · intro dir loc hdir hloc
    rw [denotes_iff] at hdir hloc ⊢
    subst hdir; subst hloc
    show _ = locate (locate s.cwd d) o.outputFileName
    rw [h4, ho, basePath_append hn hne hd, locate_file hn hne hd]
  · obtain ⟨url, hu1, hu2, hu3⟩ := C37_reference_partial s hc f hl1 h' o.bodyTemplate o.template d name ho hn hd hl
    exact ⟨url, _, _, hu1, hu2, hu3⟩

/-- The full claim C33 (a part of it): whatever the interface name and the local prefix, the comment
runs gowrap with the same ones. -/
def C33_full : Prop := ∀ (o : GenOptions) (as : List Str) (unq : Str → Option Str) (exp : Str → Str),
  o.varsArgs = varsToArgs (as.map varOf) →
  ∃ args f rest, command unq exp (generateLine o) = some (g!"gowrap" :: g!"gen" :: args) ∧
    parseGen {} args = .ok (f, rest) ∧ f.vars = as.map varOf

/-- Options for the examples. -/
def Demo.options (as : List Str) : GenOptions where
  interfaceName := g!"Reader"
  outputFile := g!"out/x.go"
  disableGoGenerate := false
  outputFileName := g!"x.go"
  varsArgs := varsToArgs (as.map varOf)
  vars := varsMap (as.map varOf)
  localPrefix := g!"example.org"
  sourcePackage := g!"io"
  source := 0
  bodyTemplate := []
  template := g!"../t/log"

/-- A variable with a blank in its value is cut off, and `-l` with everything after it is lost. -/
theorem C33_full_false : ¬ C33_full := by
  intro h
  obtain ⟨args, f, rest, h1, h2, h3⟩ := h (Demo.options [g!"m=a b"]) [g!"m=a b"] (fun _ => none) id rfl
  have e : command (fun _ => none) id (generateLine (Demo.options [g!"m=a b"])) = some [g!"gowrap", g!"gen",
    g!"-p", g!"io", g!"-i", g!"Reader", g!"-t", g!"../t/log", g!"-o", g!"x.go", g!"-v", g!"m=a", g!"b", g!"-l",
    g!"example.org"] := rfl
  rw [e] at h1
  simp only [Option.some.injEq, List.cons.injEq, true_and] at h1
  subst h1
  have e2 : parseGen {} [g!"-p", g!"io", g!"-i", g!"Reader", g!"-t", g!"../t/log", g!"-o", g!"x.go", g!"-v",
    g!"m=a", g!"b", g!"-l", g!"example.org"] = .ok (⟨false, g!"Reader", g!"io", g!"x.go", g!"../t/log",
    [⟨g!"m", .text g!"a"⟩], []⟩, [g!"b", g!"-l", g!"example.org"]) := rfl
  rw [e2] at h2
  simp only [Except.ok.injEq, Prod.mk.injEq] at h2
  obtain ⟨rfl, _⟩ := h2
  exact absurd h3 (by decide)

/-- Non-vacuity of C33: the comment of an ordinary invocation. -/
example : Survives (Demo.options [g!"a=b", g!"off"]) [g!"a=b", g!"off"] ∧
    headerComment (Demo.options [g!"a=b", g!"off"]) = some
      g!"go:generate gowrap gen -p io -i Reader -t ../t/log -o x.go -v a=b -v off -l \"example.org\"" := by
  refine ⟨⟨?_, ?_, ?_, ?_, ?_, ?_⟩, rfl⟩
  · exact ⟨by decide, by decide, by decide⟩
  · exact ⟨by decide, by decide, by decide⟩
  · exact ⟨by decide, by decide, by decide⟩
  · exact ⟨by decide, by decide, by decide⟩
  · unfold Plain; decide
  · unfold Quotable; decide

end Gowrap.Props
