import Verif.Props.Header
/-!
# C33: exactly which option values survive the `go:generate` line
-/

namespace Gowrap.Props

open Gowrap Spec

/-- What has been read of the argument. -/
def scanRead : Scan → Str
  | .between => []
  | .plain w => w
  | .quoted w => w
  | .escaped w => w
  | .closed => []

/-- Without backslashes arguments consist of characters of the line. -/
theorem split_chars (unq : Str → Option Str) : ∀ (s : Str) (st : Scan) (ws : List Str), '\\' ∉ s → '\\' ∉ scanRead st →
    split unq st s = some ws → ∀ w ∈ ws, ∀ c ∈ w, c ∈ scanRead st ++ s
  | [], st, ws, _, _, h => by
    cases st with
    | between => cases (show some [] = some ws from h); simp
    | plain a => cases (show some [a] = some ws from h); simp [scanRead]
    | quoted a => cases h
    | escaped a => cases h
    | closed => cases (show some [] = some ws from h); simp
  | d :: s, st, ws, hs, hr, h => by
    have hs' : '\\' ∉ s := fun hm => hs (by simp [hm])
    have hd : ¬ d = '\\' := fun e => hs (by simp [e])
    have hadd : ∀ {a : Str}, '\\' ∉ a → '\\' ∉ a ++ [d] := fun ha hm => by
      rcases List.mem_append.1 hm with hm | hm
      · exact ha hm
      · exact hd (by simpa using (List.mem_singleton.1 hm).symm)
    have push : ∀ {a : Str} {st' : Scan} {vs : List Str}, '\\' ∉ a → scanRead st' = a ++ [d] → split unq st' s = some vs →
        ∀ w ∈ vs, ∀ c ∈ w, c ∈ a ++ d :: s := by
      intro a st' vs ha he hv w hw c hc
      have := split_chars unq s st' vs hs' (by rw [he]; exact hadd ha) hv w hw c hc
      rw [he] at this
      simpa using this
    have next : ∀ {st' : Scan} {vs : List Str}, scanRead st' = [] → split unq st' s = some vs → ∀ w ∈ vs, ∀ c ∈ w, c ∈ s := by
      intro st' vs he hv w hw c hc
      have := split_chars unq s st' vs hs' (by rw [he]; simp) hv w hw c hc
      rw [he] at this
      simpa using this
    cases st with
    | between =>
      rw [split] at h
      intro w hw c hc
      show c ∈ d :: s
      by_cases hb : blank d = true
      · rw [if_pos hb] at h
        exact List.mem_cons_of_mem _ (next rfl h w hw c hc)
      · rw [if_neg hb] at h
        by_cases hq : d = '"'
        · rw [if_pos hq] at h
          exact List.mem_cons_of_mem _ (next (st' := .quoted []) rfl h w hw c hc)
        · rw [if_neg hq] at h
          exact push (a := []) (st' := .plain [d]) (by simp) rfl h w hw c hc
    | plain a =>
      rw [split] at h
      by_cases hb : blank d = true
      · rw [if_pos hb, Option.map_eq_some_iff] at h
        obtain ⟨vs, hv, rfl⟩ := h
        intro w hw c hc
        show c ∈ a ++ d :: s
        rcases List.mem_cons.1 hw with rfl | hw
        · simp [hc]
        · have := next rfl hv w hw c hc
          simp [this]
      · rw [if_neg hb] at h
        exact push (st' := .plain (a ++ [d])) hr rfl h
    | quoted a =>
      rw [split] at h
      by_cases hq : d = '"'
      · rw [if_pos hq] at h
        have hu : Spec.unquote unq a = some a := by
          unfold Spec.unquote
          rw [if_neg (show '\\' ∉ a from hr)]
        rw [hu, Option.bind_some, Option.map_eq_some_iff] at h
        obtain ⟨vs, hv, rfl⟩ := h
        intro w hw c hc
        show c ∈ a ++ d :: s
        rcases List.mem_cons.1 hw with rfl | hw
        · simp [hc]
        · have := next rfl hv w hw c hc
          simp [this]
      · rw [if_neg hq, if_neg hd] at h
        exact push (st' := .quoted (a ++ [d])) hr rfl h
    | escaped a =>
      rw [split] at h
      exact push (st' := .quoted (a ++ [d])) hr rfl h
    | closed =>
      rw [split] at h
      by_cases hb : blank d = true
      · rw [if_pos hb] at h
        intro w hw c hc
        exact List.mem_cons_of_mem _ (next rfl h w hw c hc)
      · rw [if_neg hb] at h
        cases h

/-- Without quotes the line consists of words: not empty, and without blanks. -/
theorem split_words (unq : Str → Option Str) (rest : Str) : ∀ (s : Str), '"' ∉ s →
    (∃ ws : List Str, (∀ w ∈ ws, w ≠ [] ∧ ∀ c ∈ w, blank c = false) ∧
      split unq .between (s ++ ' ' :: rest) = (split unq .between rest).map (ws ++ ·)) ∧
    ∀ acc : Str, acc ≠ [] → (∀ c ∈ acc, blank c = false) → ∃ ws : List Str, (∀ w ∈ ws, w ≠ [] ∧ ∀ c ∈ w, blank c = false) ∧
      split unq (.plain acc) (s ++ ' ' :: rest) = (split unq .between rest).map (ws ++ ·)
  | [], _ => by
    refine ⟨⟨[], by simp, ?_⟩, fun acc h0 hb => ⟨[acc], ?_, ?_⟩⟩
    · rw [List.nil_append, split, if_pos (by decide)]
      simp
    · intro w hw
      rw [List.mem_singleton.1 hw]
      exact ⟨h0, hb⟩
    · rw [List.nil_append, split, if_pos (by decide)]
      rfl
  | d :: s, hq => by
    obtain ⟨⟨ws, h1, h2⟩, ih⟩ := split_words unq rest s fun h => hq (by simp [h])
    have hd : ¬ d = '"' := fun e => hq (by simp [e])
    constructor
    · rw [List.cons_append, split]
      by_cases hb : blank d = true
      · rw [if_pos hb]
        exact ⟨ws, h1, h2⟩
      · rw [if_neg hb, if_neg hd]
        exact ih [d] (by simp) (by simpa using hb)
    · intro acc h0 hacc
      rw [List.cons_append, split]
      by_cases hb : blank d = true
      · rw [if_pos hb, h2, Option.map_map]
        refine ⟨acc :: ws, ?_, rfl⟩
        intro w hw
        rcases List.mem_cons.1 hw with rfl | hw
        · exact ⟨h0, hacc⟩
        · exact h1 w hw
      · rw [if_neg hb]
        refine ih (acc ++ [d]) (by simp) ?_
        intro c hc
        rcases List.mem_append.1 hc with hc | hc
        · exact hacc c hc
        · rw [List.mem_singleton.1 hc]
          simpa using hb

/-- The values that stand unquoted on the line. -/
def bareValues (o : GenOptions) (as : List Str) : List Str := [o.sourcePackage, o.interfaceName, o.template, o.outputFileName] ++ as

/-- The line up to the local prefix. -/
def bareLine (o : GenOptions) : Str :=
  g!"gowrap gen -p " ++ o.sourcePackage ++ g!" -i " ++ o.interfaceName ++ g!" -t " ++ o.template ++ g!" -o " ++ o.outputFileName ++
    o.varsArgs ++ g!" -l"

theorem generateLine_bare (o : GenOptions) : generateLine o = g!"go:generate " ++ (bareLine o ++ ' ' :: (g!"\"" ++ o.localPrefix ++ g!"\"")) := by
  unfold generateLine bareLine
  simp

theorem bareLine_chars {o : GenOptions} {as : List Str} (hv : o.varsArgs = varsToArgs (as.map varOf)) (P : Char → Prop)
    (hlit : ∀ c ∈ g!"gowrap gen -p -i -t -o -l -v", P c) (h : ∀ v ∈ bareValues o as, ∀ c ∈ v, P c) : ∀ c ∈ bareLine o, P c := by
  have hsp : P ' ' := hlit _ (by decide)
  have hd : P '-' := hlit _ (by decide)
  have lit : ∀ l : Str, (∀ c ∈ l, c ∈ g!"gowrap gen -p -i -t -o -l -v") → ∀ c ∈ l, P c := fun l hl c hc => hlit c (hl c hc)
  intro c hc
  unfold bareLine at hc
  rw [hv] at hc
  simp only [List.mem_append] at hc
  rcases hc with ((((((((hc | hc) | hc) | hc) | hc) | hc) | hc) | hc) | hc) | hc
  · exact lit g!"gowrap gen -p " (by decide) c hc
  · exact h _ (by simp [bareValues]) c hc
  · exact lit g!" -i " (by decide) c hc
  · exact h _ (by simp [bareValues]) c hc
  · exact lit g!" -t " (by decide) c hc
  · exact h _ (by simp [bareValues]) c hc
  · exact lit g!" -o " (by decide) c hc
  · exact h _ (by simp [bareValues]) c hc
  · exact varsToArgs_chars as P hsp hd (hlit _ (by decide)) (fun a ha => h a (by simp [bareValues, ha])) c hc
  · exact lit g!" -l" (by decide) c hc

theorem generateLine_chars {o : GenOptions} {as : List Str} (hv : o.varsArgs = varsToArgs (as.map varOf)) (P : Char → Prop)
    (hlit : ∀ c ∈ g!"gowrap gen -p -i -t -o -l -v:\"", P c) (h : ∀ v ∈ o.localPrefix :: bareValues o as, ∀ c ∈ v, P c) :
    ∀ c ∈ generateLine o, P c := by
  have lit : ∀ l : Str, (∀ c ∈ l, c ∈ g!"gowrap gen -p -i -t -o -l -v:\"") → ∀ c ∈ l, P c := fun l hl c hc => hlit c (hl c hc)
  intro c hc
  rw [generateLine_bare] at hc
  rcases List.mem_append.1 hc with hc | hc
  · exact lit g!"go:generate " (by decide) c hc
  rcases List.mem_append.1 hc with hc | hc
  · exact bareLine_chars hv P (lit _ (by decide)) (fun v hv' => h v (by simp [hv'])) c hc
  rcases List.mem_cons.1 hc with rfl | hc
  · exact hlit _ (by decide)
  rcases List.mem_append.1 hc with hc | hc
  · rcases List.mem_append.1 hc with hc | hc
    · exact lit g!"\"" (by decide) c hc
    · exact h _ (by simp) c hc
  · exact lit g!"\"" (by decide) c hc

theorem mem_dropCR {c : Char} {l : Str} (h : c ∈ dropCR l) : c ∈ l := by
  unfold dropCR at h
  split at h
  · exact List.dropLast_subset l h
  · exact h

/-- **C33** (exact): for option values without quotes, backslashes, dollar signs and carriage returns, `go generate` runs gowrap with exactly the
arguments of the header exactly if package, interface, template, output file and variables are not empty and contain no blanks, tabs and line breaks,
and the local prefix contains no line break.  (`C33_rerun_partial` says what these arguments mean.) -/
theorem C33_exact (o : GenOptions) (as : List Str) (unq : Str → Option Str) (exp : Str → Str) (hv : o.varsArgs = varsToArgs (as.map varOf))
    (hq : ∀ v ∈ o.localPrefix :: bareValues o as, ∀ c ∈ v, c ≠ '"' ∧ c ≠ '\\' ∧ c ≠ '$' ∧ c ≠ '\r') :
    command unq exp (generateLine o) = some (g!"gowrap" :: g!"gen" :: rerunArgs o as) ↔
    (∀ v ∈ bareValues o as, v ≠ [] ∧ ∀ c ∈ v, blank c = false ∧ c ≠ '\n') ∧ '\n' ∉ o.localPrefix := by
  have hin : ∀ v ∈ o.localPrefix :: bareValues o as, v ∈ g!"gowrap" :: g!"gen" :: rerunArgs o as := by
    intro v hv'
    simp only [bareValues, List.mem_cons, List.mem_append, List.not_mem_nil, or_false] at hv'
    unfold rerunArgs vArgs
    simp only [List.mem_cons, List.mem_append, List.mem_flatMap, List.not_mem_nil, or_false]
    rcases hv' with rfl | (rfl | rfl | rfl | rfl) | h
    · simp
    · simp
    · simp
    · simp
    · simp
    · exact .inr (.inr (.inl (.inr ⟨v, h, by simp⟩)))
  constructor
  · intro h
    have hback : ∀ c ∈ generateLine o, c ≠ '\\' ∧ c ≠ '$' :=
      generateLine_chars hv (fun c => c ≠ '\\' ∧ c ≠ '$') (by decide) fun v hv' c hc => ⟨(hq v hv' c hc).2.1, (hq v hv' c hc).2.2.1⟩
    unfold command at h
    simp only at h
    split at h
    case isFalse => cases h
    rename_i hpre
    rw [Option.map_eq_some_iff] at h
    obtain ⟨ws, hws, hE⟩ := h
    obtain ⟨line, hdef⟩ : ∃ line, dropCR (((generateLine o).takeWhile (fun c => decide (c ≠ '\n'))).drop 12) = line := ⟨_, rfl⟩
    rw [hdef] at hws
    have hline : ∀ c ∈ line, c ∈ generateLine o ∧ c ≠ '\n' := by
      intro c hc
      rw [← hdef] at hc
      have hc := List.mem_of_mem_drop (mem_dropCR hc)
      refine ⟨(List.takeWhile_prefix _).subset hc, ?_⟩
      simpa using List.all_eq_true.1 (List.all_takeWhile (p := fun c => decide (c ≠ '\n')) (l := generateLine o)) c hc
    have hchars : ∀ w ∈ ws, ∀ c ∈ w, c ∈ generateLine o ∧ c ≠ '\n' := by
      intro w hw c hc
      have := split_chars unq line .between ws (fun hm => (hback _ (hline _ hm).1).1 rfl) (by simp [scanRead]) hws w hw c hc
      exact hline c (by simpa [scanRead] using this)
    have hexp : ws.map (expand exp) = ws := by
      conv => rhs; rw [← List.map_id ws]
      refine List.map_congr_left fun w hw => ?_
      exact expand_plain exp fun c hc => (hback c (hchars w hw c hc).1).2
    rw [hexp] at hE
    have hnl : ∀ v ∈ o.localPrefix :: bareValues o as, ∀ c ∈ v, c ≠ '\n' := fun v hv' c hc =>
      (hchars v (by rw [hE]; exact hin v hv') c hc).2
    have hwhole : (generateLine o).takeWhile (fun c => decide (c ≠ '\n')) = generateLine o :=
      takeWhile_all (generateLine_chars hv (· ≠ '\n') (by decide) hnl)
    rw [← hdef, hwhole, generateLine_bare] at hws
    have hdrop : ∀ x : Str, (g!"go:generate " ++ x).drop 12 = x := fun x => rfl
    rw [hdrop] at hws
    have hcr : dropCR (bareLine o ++ ' ' :: (g!"\"" ++ o.localPrefix ++ g!"\"")) = bareLine o ++ ' ' :: (g!"\"" ++ o.localPrefix ++ g!"\"") := by
      have hl : (bareLine o ++ ' ' :: (g!"\"" ++ o.localPrefix ++ g!"\"")).getLast? = some '"' := by
        simp [List.getLast?_append, List.getLast?_cons]
      unfold dropCR
      rw [hl, if_neg (by decide)]
    rw [hcr] at hws
    have hbare : '"' ∉ bareLine o := fun hm =>
      bareLine_chars hv (· ≠ '"') (by decide) (fun v hv' c hc => (hq v (by simp [hv']) c hc).1) _ hm rfl
    obtain ⟨⟨vs, hvs, hsplit⟩, _⟩ := split_words unq (g!"\"" ++ o.localPrefix ++ g!"\"") (bareLine o) hbare
    have hquot : Quotable o.localPrefix := fun c hc =>
      have hc' := hq o.localPrefix (by simp) c hc
      ⟨hc'.1, hc'.2.1, hnl _ (by simp) c hc, hc'.2.2.2, hc'.2.2.1⟩
    rw [hsplit, split_last unq hquot, Option.map_some] at hws
    have hws := Option.some.inj hws
    rw [hE] at hws
    have hlast : vs = g!"gowrap" :: g!"gen" :: ([g!"-p", o.sourcePackage, g!"-i", o.interfaceName, g!"-t", o.template, g!"-o", o.outputFileName] ++
        vArgs as ++ [g!"-l"]) := by
      have e : g!"gowrap" :: g!"gen" :: rerunArgs o as = (g!"gowrap" :: g!"gen" :: ([g!"-p", o.sourcePackage, g!"-i", o.interfaceName, g!"-t",
          o.template, g!"-o", o.outputFileName] ++ vArgs as ++ [g!"-l"])) ++ [o.localPrefix] := by
        unfold rerunArgs
        simp
      rw [e] at hws
      exact List.append_cancel_right hws
    refine ⟨fun v hv' => ?_, fun hm => hnl _ (by simp) _ hm rfl⟩
    have hm : v ∈ vs := by
      rw [hlast]
      simp only [bareValues, List.mem_cons, List.mem_append, List.not_mem_nil, or_false] at hv'
      unfold vArgs
      simp only [List.mem_cons, List.mem_append, List.mem_flatMap, List.not_mem_nil, or_false]
      rcases hv' with (rfl | rfl | rfl | rfl) | h
      · simp
      · simp
      · simp
      · simp
      · exact .inr (.inr (.inl (.inr ⟨v, h, by simp⟩)))
    exact ⟨(hvs v hm).1, fun c hc => ⟨(hvs v hm).2 c hc, hnl v (by simp [hv']) c hc⟩⟩
  · rintro ⟨hb, hp⟩
    have plain : ∀ v ∈ bareValues o as, Plain v := by
      intro v hv'
      refine ⟨(hb v hv').1, ?_, fun c hc => ?_⟩
      · intro e
        cases v with
        | nil => cases e
        | cons c x =>
          have := (hq (c :: x) (by simp [hv']) c (by simp)).1
          simp at e
          exact this e
      · have := hq v (by simp [hv']) c hc
        exact ⟨((hb v hv').2 c hc).1, ((hb v hv').2 c hc).2, this.2.2.2, this.2.2.1⟩
    refine command_generateLine unq exp o as hv ⟨plain _ (by simp [bareValues]), plain _ (by simp [bareValues]), plain _ (by simp [bareValues]),
      plain _ (by simp [bareValues]), fun a ha => plain a (by simp [bareValues, ha]), fun c hc => ?_⟩
    have := hq o.localPrefix (by simp) c hc
    refine ⟨this.1, this.2.1, ?_, this.2.2.2, this.2.2.1⟩
    rintro rfl
    exact hp hc

/-- An ordinary invocation is repeated; a blank in a local prefix does no harm, one in a variable or in the path of the template does, and so does an
empty interface name. -/
example : command (fun _ => none) id (generateLine { Demo.options [g!"a=b"] with localPrefix := g!"a b" }) =
    some (g!"gowrap" :: g!"gen" :: rerunArgs { Demo.options [g!"a=b"] with localPrefix := g!"a b" } [g!"a=b"]) :=
  (C33_exact _ _ _ _ rfl (by decide +kernel)).2 (by decide +kernel)

example : ¬ command (fun _ => none) id (generateLine { Demo.options [] with template := g!"my templates/log" }) =
    some (g!"gowrap" :: g!"gen" :: rerunArgs { Demo.options [] with template := g!"my templates/log" } []) :=
  fun h => absurd ((C33_exact _ _ _ _ rfl (by decide +kernel)).1 h) (by decide +kernel)

example : ¬ command (fun _ => none) id (generateLine { Demo.options [] with interfaceName := [] }) =
    some (g!"gowrap" :: g!"gen" :: rerunArgs { Demo.options [] with interfaceName := [] } []) :=
  fun h => absurd ((C33_exact _ _ _ _ rfl (by decide +kernel)).1 h) (by decide +kernel)

end Gowrap.Props
