import Verif.Props.Printer
import Verif.Props.Signature
import Verif.Props.Utf8
import Verif.Props.Destination
import Verif.Props.Header
/-!
# Exact boundaries of C12, C37, C42, C60 and C61
-/

namespace Gowrap.Props

open Gowrap Spec

/-! ## C12 -/

/-- **C12**, exactly: for any Unicode tables, printing for another package fails if and only if the type
refers to a declared type whose first letter is its own lower case form; the error names such a type. -/
theorem C12_exact (env : PrintEnv) (e : Expr) (hne : ∀ n ∈ env.types, n ≠ []) :
    ((∃ er, printType env e = .err er) ↔
      env.pref ≠ [] ∧ ∃ c r, (c :: r) ∈ typeNames e ∧ (c :: r) ∈ env.types ∧ env.uni.toLower c = c) ∧
    (∀ er, printType env e = .err er → ∃ c r, (c :: r) ∈ typeNames e ∧ (c :: r) ∈ env.types ∧
      env.uni.toLower c = c ∧ er = .unexportedType (c :: r)) ∧
    ((∃ er, printType env e = .err er) ∨ ∃ s, printType env e = .ok s) := by
  have hid : ∀ n, (∃ t, printIdent env n = .ok t ∧
        ∀ c r, n = c :: r → ¬ (env.pref ≠ [] ∧ n ∈ env.types ∧ env.uni.toLower c = c)) ∨
      (printIdent env n = .err (.unexportedType n) ∧ env.pref ≠ [] ∧ n ∈ env.types ∧
        ∃ c r, n = c :: r ∧ env.uni.toLower c = c) := by
    intro n
    unfold printIdent
    by_cases hm : n ∈ env.types
    · rw [if_pos (by simpa using hm)]
      by_cases hp : env.pref = []
      · left; simp [hp]
      · have hlen : env.pref.length > 0 := List.length_pos_iff.2 hp
        rw [if_pos hlen]
        match n, hm with
        | [], hm => exact absurd rfl (hne [] hm)
        | c :: r, hm =>
          simp only [Uni.looksUnexported]
          by_cases hl : c = env.uni.toLower c
          · right
            have : (c == env.uni.toLower c) = true := by simpa using hl
            simp only [this]
            exact ⟨trivial, hp, hm, c, r, rfl, hl.symm⟩
          · left
            have : (c == env.uni.toLower c) = false := by simpa using hl
            simp only [this]
            refine ⟨_, rfl, ?_⟩
            rintro c' r' e ⟨_, _, hx⟩
            injection e with e1 e2
            subst e1
            exact hl hx.symm
    · left
      rw [if_neg (by simpa using hm)]
      exact ⟨_, rfl, by simp [hm]⟩
  rcases printType_lifts env e with ⟨s, hs, hall⟩ | ⟨n, hn, hbad⟩
  · refine ⟨⟨?_, ?_⟩, ?_, Or.inr ⟨s, hs⟩⟩
    · rintro ⟨er, h⟩; rw [hs] at h; cases h
    · rintro ⟨hp, c, r, hn, hm, hx⟩
      obtain ⟨t, ht⟩ := hall _ hn
      rcases hid (c :: r) with ⟨_, _, h⟩ | ⟨h, _⟩
      · exact absurd ⟨hp, hm, hx⟩ (h c r rfl)
      · rw [ht] at h; cases h
    · intro er h; rw [hs] at h; cases h
  · rcases hid n with ⟨t, ht, _⟩ | ⟨he, hp, hm, c, r, rfl, hx⟩
    · rcases hbad with ⟨er, h, _⟩ | ⟨h, _⟩ <;> (rw [ht] at h; cases h)
    · rcases hbad with ⟨er, h, hr⟩ | ⟨h, _⟩
      · rw [he] at h
        have : er = .unexportedType (c :: r) := by injection h with h; exact h.symm
        subst this
        refine ⟨⟨fun _ => ⟨hp, c, r, hn, hm, hx⟩, fun _ => ⟨_, hr⟩⟩, ?_, Or.inl ⟨_, hr⟩⟩
        intro er' h'
        rw [hr] at h'
        injection h' with h'
        exact ⟨c, r, hn, hm, hx, h'.symm⟩
      · rw [he] at h; cases h

/-- Both sides occur: `𝐀`, which has no lower case form, is refused; `Bar` is not. -/
example : (∀ n ∈ [['𝐀'], g!"Bar"], n ≠ []) ∧ mathUni.toLower '𝐀' = '𝐀' ∧ mathUni.isUpper '𝐀' = true ∧
    printType ⟨mathUni, rawDemo, [['𝐀'], g!"Bar"], g!"foo"⟩ (.ident ['𝐀']) = .err (.unexportedType ['𝐀']) ∧
    printType ⟨mathUni, rawDemo, [['𝐀'], g!"Bar"], g!"foo"⟩ (.ident g!"Bar") = .ok g!"foo.Bar" :=
  ⟨by decide, by decide, by decide, by rfl, by rfl⟩

/-! ## C37 -/

/-- A relative path made by `filepath.Rel` has no empty element. -/
theorem relElems_no_empty {base target : List Str} (ht : IsDir target) :
    [] ∉ pieces (relElems base target) := by
  unfold relElems
  split
  · decide
  · rename_i hne
    obtain ⟨c, h1, h2⟩ := stripCommon_spec base target
    cases hs : stripCommon base target with
    | mk b t =>
    rw [hs] at h1 h2
    simp only at h1 h2
    show [] ∉ pieces (join g!"/" (b.map (fun _ => g!"..") ++ t))
    have hall : ∀ w ∈ b.map (fun _ => g!"..") ++ t, w ≠ [] ∧ '/' ∉ w := by
      intro w hw
      rcases List.mem_append.1 hw with hw | hw
      · obtain ⟨_, _, rfl⟩ := List.mem_map.1 hw; decide
      · have := ht w (by rw [h2]; simp [hw])
        exact ⟨this.1, this.2.2.2⟩
    have hnil : b.map (fun _ => g!"..") ++ t ≠ [] := by
      intro h
      rw [List.append_eq_nil_iff] at h
      have hb0 : b = [] := by simpa using h.1
      exact hne (by rw [h1, h2, hb0, h.2])
    rw [pieces_join _ hnil fun w hw => (hall w hw).2]
    intro h
    exact (hall [] h).1 rfl

theorem empty_piece_of_http {url : Str} (h : g!"http://" <+: url) : [] ∈ pieces url := by
  obtain ⟨t, rfl⟩ := h
  have : g!"http://" ++ t = g!"http:" ++ '/' :: ([] ++ '/' :: t) := rfl
  rw [this, pieces_cons _ _ (by decide), pieces_cons _ _ (by decide)]
  simp

/-- **C37**, exactly: of the templates fetched over the network, those fetched over HTTPS are referred to
by their URL, and no other is. -/
theorem C37_exact (s : Sys) (hc : IsDir s.cwd) (f : GenFlags) (h h' : List Ev) (body : Bytes) (ref url : Str)
    (hl : s.loadTemplate f (absPath s.cwd (dirPath f.outputFile)) h = (.ok (body, ref), h'))
    (hu : s.loaderLoad f.template h = (.ok (body, url), h')) (hurl : IsUrl url) :
    ref = url ↔ g!"https://" <+: url := by
  obtain ⟨url', h1, h2⟩ := run_loadTemplate hl
  rw [hu] at h1
  have : url = url' := by
    simp only [Prod.mk.injEq, Except.ok.injEq] at h1; exact h1.1.2
  subst this
  rcases h2 with ⟨h2, h3⟩ | ⟨h2, h3⟩
  · exact ⟨fun _ => h2, fun _ => h3⟩
  · refine ⟨fun e => ?_, fun e => absurd e h2⟩
    rcases hurl with hh | hh
    · exact hh
    · exfalso
      have hbd : IsDir (locate s.cwd (dirPath f.outputFile)) := locate_dir hc _
      have htd : IsDir (locate s.cwd url) := locate_dir hc url
      unfold absPath at h3
      rw [absElems_eq hc, absElems_eq hc] at h3
      unfold relPath at h3
      rw [isAbs_absText, isAbs_absText, cleanPieces_absText hbd, cleanPieces_absText htd] at h3
      simp only [Bool.and_self, if_true, Option.some.injEq] at h3
      have := relElems_no_empty (base := locate s.cwd (dirPath f.outputFile)) htd
      rw [h3, e] at this
      exact this (empty_piece_of_http hh)

/-- Both sides occur. -/
example : (Demo.sys.loadTemplate { template := g!"http://h/t", outputFile := g!"out/x.go" }
      (absPath Demo.sys.cwd (dirPath g!"out/x.go")) []).1 = .ok ([9], g!"../http:/h/t") ∧
    (Demo.sys.loadTemplate { template := g!"https://h/t", outputFile := g!"out/x.go" }
      (absPath Demo.sys.cwd (dirPath g!"out/x.go")) []).1 = .ok ([9], g!"https://h/t") ∧
    IsUrl g!"http://h/t" ∧ IsUrl g!"https://h/t" :=
  ⟨by rfl, by rfl, Or.inr ⟨g!"h/t", rfl⟩, Or.inl ⟨g!"h/t", rfl⟩⟩

/-! ## C42 -/

/-- **C42**, exactly: `upFirst` and `downFirst` panic for texts of one or two bytes that do not begin with
a well-formed rune, and for no others. -/
theorem C42_exact (f : Nat → Nat) (s : List UInt8) :
    mapFirst f s = .panic ↔
      s ≠ [] ∧ s.length < 3 ∧ ∀ r bs rest, s = bs ++ rest → ¬ Utf8 r bs := by
  constructor
  · intro h
    have hne : s ≠ [] := by
      rintro rfl
      rw [C42_empty] at h; cases h
    have hbad : ∀ r bs rest, s = bs ++ rest → ¬ Utf8 r bs := by
      rintro r bs rest rfl hu
      obtain ⟨out, _, ho⟩ := C42_first_rune_partial f r bs rest hu
      rw [ho] at h; cases h
    refine ⟨hne, ?_, hbad⟩
    match s, h, hne, hbad with
    | [], _, hne, _ => exact absurd rfl hne
    | [_], _, _, _ => simp
    | [_, _], _, _, _ => simp
    | a :: b :: c :: rest, h, hne, hbad =>
      obtain ⟨out, _, ho⟩ := (C42_invalid f _ hne hbad).2 a b c rest rfl
      rw [ho] at h; cases h
  · rintro ⟨hne, hlen, hbad⟩
    exact (C42_invalid f s hne hbad).1 hlen

/-- Both sides occur: a lone byte of a longer rune, and the same byte with more text. -/
example : mapFirst id [0xC3] = .panic ∧ mapFirst id [0xC3, 0x61, 0x62] = .ok [0xEF, 0xBF, 0xBD] :=
  ⟨by rfl, by rfl⟩

/-! ## C60 -/

theorem run_at {env ds used ps used'} (h : ParamRun env ds used ps used') : ∀ (i : Nat) d p, ds[i]? = some d → ps[i]? = some p →
    ∃ u u', NewParamSpec env (d.1.getD []) d.2 u p u' := by
  induction h with
  | nil => intro i d p hd; simp at hd
  | @cons n fi ds used p used1 ps used2 hp _ ih =>
    intro i d q hd hq
    cases i with
    | zero =>
      simp only [List.getElem?_cons_zero, Option.some.injEq] at hd hq
      subst hd; subst hq
      exact ⟨_, _, hp⟩
    | succ i => exact ih i d q (by simpa using hd) (by simpa using hq)

/-- The prefix of a type whose core does not begin with an ASCII character begins with U+FFFD. -/
theorem typePrefix_bad (u : Uni) : ∀ (e : Expr) (pre : Str) (c : Char) (cs : Str), coreName e = some (c :: cs) → ¬ c.val < 128 →
    typePrefix u e = .ok pre → ∃ r, pre = '\uFFFD' :: r
  | .ident n, pre, c, cs, hc, hb, h => by
    simp only [coreName, Option.some.injEq] at hc
    subst hc
    simp only [typePrefix, lowerFirstByte, if_neg hb, Res.ok.injEq] at h
    exact ⟨[], h.symm⟩
  | .selector _ n, pre, c, cs, hc, hb, h => by
    simp only [coreName, Option.some.injEq] at hc
    subst hc
    simp only [typePrefix, lowerFirstByte, if_neg hb, Res.ok.injEq] at h
    exact ⟨[], h.symm⟩
  | .star x, pre, c, cs, hc, hb, h => by
    simp only [typePrefix, Res.bind_eq_ok, Res.pure_eq, Res.ok.injEq] at h
    obtain ⟨q, hq, rfl⟩ := h
    obtain ⟨r, rfl⟩ := typePrefix_bad u x q c cs (by simpa [coreName] using hc) hb hq
    exact ⟨_, rfl⟩
  | .sliceExpr x, pre, c, cs, hc, hb, h => by
    simp only [typePrefix, Res.bind_eq_ok, Res.pure_eq, Res.ok.injEq] at h
    obtain ⟨q, hq, rfl⟩ := h
    obtain ⟨r, rfl⟩ := typePrefix_bad u x q c cs (by simpa [coreName] using hc) hb hq
    exact ⟨_, rfl⟩
  | .array _ x, pre, c, cs, hc, hb, h => by
    simp only [typePrefix, Res.bind_eq_ok, Res.pure_eq, Res.ok.injEq] at h
    obtain ⟨q, hq, rfl⟩ := h
    obtain ⟨r, rfl⟩ := typePrefix_bad u x q c cs (by simpa [coreName] using hc) hb hq
    exact ⟨_, rfl⟩
  | .mapT .., _, _, _, hc, _, _ => by simp [coreName] at hc
  | .chanT .., _, _, _, hc, _, _ => by simp [coreName] at hc
  | .structT .., _, _, _, hc, _, _ => by simp [coreName] at hc
  | .funcT .., _, _, _, hc, _, _ => by simp [coreName] at hc
  | .ellipsis .., _, _, _, hc, _, _ => by simp [coreName] at hc
  | .ifaceT .., _, _, _, hc, _, _ => by simp [coreName] at hc
  | .index .., _, _, _, hc, _, _ => by simp [coreName] at hc
  | .indexList .., _, _, _, hc, _, _ => by simp [coreName] at hc
  | .paren .., _, _, _, hc, _, _ => by simp [coreName] at hc
  | .lit .., _, _, _, hc, _, _ => by simp [coreName] at hc
  | .unary .., _, _, _, hc, _, _ => by simp [coreName] at hc
  | .binary .., _, _, _, hc, _, _ => by simp [coreName] at hc
  | .other .., _, _, _, hc, _, _ => by simp [coreName] at hc

/-- **C60**, exactly: a parameter without a name (that is not the context) gets a name that is an identifier if and only if the named type at
the core of its type, if there is one, begins with an ASCII letter. -/
theorem C60_exact (letter : Char → Prop) (hfffd : ¬ letter '\uFFFD') (hletter : ∀ c, c.val < 128 → letter c → AsciiLetter c) (env : SigEnv)
    (name : Str) (fi : Field) (m : Method) (params : List Field) (results : Option (List Field)) (ht : fi.type = .funcT params results)
    (h : newMethod env name fi = .ok m) (hs : SourceIdents letter params results) (i : Nat) (d : Option Str × Field) (p : Param)
    (hd : (declared params)[i]? = some d) (hp : m.params[i]? = some p) (hanon : d.1 = none) (hctx : m.acceptsContext = true → i ≠ 0) :
    IsIdentifier letter p.name ↔ ∀ c cs, coreName d.2.type = some (c :: cs) → AsciiLetter c := by
  obtain ⟨params', results', used1, used2, ps, rs, u, u', H⟩ := newMethod_ok h
  have hpr : params' = params ∧ results' = results := by rw [H.type_eq] at ht; cases ht; exact ⟨rfl, rfl⟩
  obtain ⟨rfl, rfl⟩ := hpr
  have hp' : ps[i]? = some p := by
    cases hac : m.acceptsContext with
    | false => rw [← H.psEq' hac]; exact hp
    | true =>
      obtain ⟨p0, rest, e1, e2⟩ := renameFirst_ok (H.psEq hac)
      rw [e2] at hp
      rw [e1]
      cases i with
      | zero => exact absurd rfl (hctx hac)
      | succ i => simpa using hp
  obtain ⟨u0, u1, hnp⟩ := run_at H.runP i d p hd hp'
  obtain ⟨pre, hpre, hg⟩ := hnp.name_gen (Or.inl (by rw [hanon]; rfl))
  obtain ⟨k, _, hk, _⟩ := genName_spec pre 1 u0
  rw [hg] at hk
  rw [Res.ok.inj hk]
  constructor
  · intro hid c cs hcore
    have hmem : d ∈ declared params' ++ declaredOpt results' := List.mem_append_left _ (List.mem_of_getElem? hd)
    have hcl : letter c := (hs.types d hmem _ hcore).1
    by_cases hb : c.val < 128
    · exact hletter c hb hcl
    · obtain ⟨r, rfl⟩ := typePrefix_bad _ _ _ c cs hcore hb hpre
      exact absurd hid.1 hfffd
  · intro hc
    refine isIdentifier_append (typePrefix_ident hs.ascii _ _ _ hc hpre) ?_
    intro d hd; exact Or.inr (natDec_digits hd)

/-- Both sides occur: parameters of the types `[]*Ünit` and `[]*int`. -/
example : ∃ m, newMethod Demo.env g!"M" (Demo.fld [g!"M"] (.funcT
      [Demo.fld [] (.array none (.star (.ident g!"Ünit"))), Demo.fld [] (.array none (.star Demo.int_))] none)) = .ok m ∧
    m.params.map (·.name) = [['\uFFFD', 'p', 'a', '1'], g!"ipa1"] ∧
    ¬ AsciiLetter 'Ü' ∧ AsciiLetter 'i' := ⟨_, rfl, by decide, by unfold AsciiLetter; decide, by unfold AsciiLetter; decide⟩

/-! ## C61 -/

/-- **C61**, exactly: a package started for a directory without one is named like the directory, seen from
anywhere, unless its name is `..`. -/
theorem C61_exact {w : World} (hw : RealPaths w)
    (hpath : ∀ pattern p, w.load pattern = .ok p → (w.pkg p).path ≠ []) {s : Sched} {fuel : Nat} {o : Options} {g : Generator}
    (h : newGenerator w s fuel o = .ok g) {d name : Str} (ho : o.outputFile = d ++ name) (hn : '/' ∉ name)
    (hd : d = [] ∨ d.getLast? = some '/') (hp : g.dstPath = []) :
    (∀ cwd dir, IsDir cwd → Denotes cwd d dir → dir.getLast? = some g.dstName) ↔ g.dstName ≠ g!".." := by
  constructor
  · intro hall e
    have hdir : IsDir (locate [] d) := locate_dir (by intro x hx; cases hx) d
    have hlast := hall [] _ (by intro x hx; cases hx) ((denotes_iff _ _ _).2 rfl)
    rw [e] at hlast
    exact (hdir _ (List.mem_of_getLast? hlast)).2.2.1 rfl
  · intro hne
    obtain ⟨pattern, _, _, ⟨p, h1, _, h2⟩ | ⟨_, _, _, h2⟩⟩ := C61_destination_partial hw h ho hn hd
    · exact absurd (h2.symm.trans hp) (hpath _ p h1)
    · exact h2 hne

theorem Demo.appReal_paths (pattern : Str) (p : PkgId) (h : Demo.appReal.load pattern = .ok p) :
    (Demo.appReal.pkg p).path ≠ [] := by
  simp only [Demo.appReal, Demo.app, Demo.world] at h ⊢
  rw [List.findIdx?_cons, List.findIdx?_cons, List.findIdx?_nil] at h
  by_cases h1 : g!"ex/app" = pattern
  · simp [h1] at h; subst h; decide
  · by_cases h2 : g!"ex/store" = pattern
    · simp [h1, h2] at h; subst h; decide
    · simp [h1, h2] at h

/-- Both sides occur. -/
example : (∃ g, newGenerator Demo.appReal Demo.inOrder 20 { extra with outputFile := g!"../x.go" } = .ok g ∧
      g.dstPath = [] ∧ g.dstName = g!"..") ∧
    ∃ g, newGenerator Demo.appReal Demo.inOrder 20 { extra with outputFile := g!"../out/x.go" } = .ok g ∧
      g.dstPath = [] ∧ g.dstName = g!"out" := ⟨⟨_, rfl, rfl, rfl⟩, ⟨_, rfl, rfl, rfl⟩⟩

end Gowrap.Props
