import Verif.Proofs.Sound
/-!
# Every followed method is discovered
-/

namespace Gowrap

open Gowrap.Spec

/-- All methods followed from the type expression `e` of file `f` are found. -/
def CompleteFor (w : World) (pos : Pos) (p : PkgId) (f : File) (e : Expr) (r : Methods) : Prop :=
  ∀ d, Followed w pos p f e d → d.name ∈ r.map (·.1)

/-- Completeness of all functions at one recursion bound. -/
structure CompleteAt (w : World) (s : Sched) (n : Nat) : Prop where
  target : ∀ path cur pref files name gps out f ts, w.files cur = .ok files →
    findTarget w s n path cur pref files name gps = .ok out →
    FileOf w cur f → DeclaredIn f ts → ts.name = name →
    CompleteFor w .rhs cur f ts.type (out.methods.getD [])
  methods : ∀ path f ts i r, InputOk w i f → DeclaredIn f ts → i.file = typeSpecs f →
    findMethods w s n path ts i = .ok r → CompleteFor w .rhs i.cur f ts.type (r.getD [])
  get : ∀ path sel src q r f ts, w.load src = .ok q → getMethods w s n path sel src = .ok r →
    FileOf w q f → DeclaredIn f ts → ts.name = sel → CompleteFor w .rhs q f ts.type (r.getD [])
  iface : ∀ path f g ms i r, InputOk w i g → FileOf w i.cur f →
    (∀ a, Qualifies a (.ifaceT ms) → AgreeAt w i.cur f a) →
    processInterface w s n path ms i = .ok r → CompleteFor w .rhs i.cur f (.ifaceT ms) (r.getD [])
  fields : ∀ path f g ms i acc r, InputOk w i g → FileOf w i.cur f →
    (∀ a, Qualifies a (.ifaceT ms) → AgreeAt w i.cur f a) →
    processFields w s n path ms i acc = .ok r →
    (∀ k, k ∈ acc.map (·.1) → k ∈ (r.getD []).map (·.1)) ∧
      CompleteFor w .rhs i.cur f (.ifaceT ms) (r.getD [])
  embedded : ∀ path f g e i p r, InputOk w i g → FileOf w i.cur f →
    (∀ a, Qualifies a e → AgreeAt w i.cur f a) →
    processEmbedded w s n path e i true = .ok (p, r) → CompleteFor w .elem i.cur f e (r.getD [])
  getEmbedded : ∀ path f g e i p r, InputOk w i g → FileOf w i.cur f →
    (∀ a, Qualifies a e → AgreeAt w i.cur f a) →
    (∀ x j, e ≠ .index x j) → (∀ x js, e ≠ .indexList x js) →
    getEmbeddedMethods w s n path e i true = .ok (p, r) → CompleteFor w .elem i.cur f e (r.getD [])
  selector : ∀ path f g x sel i r, InputOk w i g → FileOf w i.cur f →
    (∀ a, x = .ident a → AgreeAt w i.cur f a) →
    processSelector w s n path x sel i = .ok r → CompleteFor w .elem i.cur f (.selector x sel) (r.getD [])
  ident : ∀ path f g name i r, InputOk w i g → FileOf w i.cur f →
    processIdent w s n path name i true = .ok r → CompleteFor w .elem i.cur f (.ident name) (r.getD [])

theorem complete_zero (w : World) (s : Sched) : CompleteAt w s 0 where
  target := by intros; simp_all [findTarget]
  methods := by intros; simp_all [findMethods]
  get := by intros; simp_all [getMethods]
  iface := by intros; simp_all [processInterface]
  fields := by intros; simp_all [processFields]
  embedded := by intros; simp_all [processEmbedded]
  getEmbedded := by intros; simp_all [getEmbeddedMethods]
  selector := by intros; simp_all [processSelector]
  ident := by intros; simp_all [processIdent]

theorem Spec.NamesType.not_index {e : Expr} (h : NamesType e) :
    (∀ x j, e ≠ .index x j) ∧ ∀ x js, e ≠ .indexList x js := by
  rcases h with ⟨n, rfl⟩ | ⟨a, n, rfl⟩ <;> simp

theorem findEmbedded_checked {types : List TypeSpec} {name : Str} {t : TypeSpec} {fe : Option (TypeSpec × List Field)}
    (ht : t ∈ types) (hn : t.name = name) (hu : ∀ t' ∈ types, t'.name = name → t' = t)
    (h : findEmbedded types name true = .ok fe) : ∃ ms, fe = some (t, ms) ∧ t.type = .ifaceT ms := by
  unfold findEmbedded at h
  split at h
  · next h' =>
    have := (List.find?_eq_none.1 h') t ht
    simp [hn] at this
  · next t' h' =>
    have : t' = t := hu t' (List.mem_of_find?_eq_some h') (by simpa using List.find?_some h')
    subst this
    split at h
    · next ms hty => cases h; exact ⟨ms, rfl, hty⟩
    · simp at h

theorem complete_succ {w : World} {s : Sched} (hs : s.Fair) (hp : PlainImports w) (hl : LoadsImports w)
    (ha : QualifiersAgree w) (hu : UniqueTypes w) {n : Nat} (ih : CompleteAt w s n) :
    CompleteAt w s (n + 1) where
  target := by
    intro path cur pref files name gps out f' ts' hf h hf' hd' hn'
    simp only [findTarget] at h
    split at h
    · cases h
    · next ts f hsel =>
      obtain ⟨h1, h2, h3⟩ := iterateFiles_some hsel
      have hff : FileOf w cur f := ⟨files, hf, (hs.files path files).mem_iff.1 h1⟩
      obtain ⟨rfl, rfl⟩ := hu _ _ _ _ _ hff hf' h2 hd' (h3.trans hn'.symm)
      rw [Res.bind_eq_ok] at h
      obtain ⟨gts, _, h⟩ := h
      rw [Res.bind_eq_ok] at h
      obtain ⟨r, hr, h⟩ := h
      cases h
      refine ih.methods _ f ts _ r ⟨?_, hff, rfl⟩ h2 rfl hr
      intro t
      rw [mem_types]
      constructor
      · rintro ⟨f', h4, h5⟩
        exact ⟨f', ⟨files, hf, (hs.files path files).mem_iff.1 h4⟩, h5⟩
      · rintro ⟨f', ⟨fs, h4, h4'⟩, h5⟩
        rw [show w.files cur = _ from hf] at h4
        cases h4
        exact ⟨f', (hs.files path files).mem_iff.2 h4', h5⟩
  methods := by
    intro path f ts i r hi hd hfile h d hfol
    simp only [findMethods] at h
    split at h
    · next ms he =>
      rw [he] at hfol
      refine ih.iface _ f f ms i r hi hi.file ?_ h d hfol
      intro a hq
      exact ha _ _ ts a hi.file hd (he ▸ hq)
    · next x sel he =>
      rw [he] at hfol
      cases hfol with
      | @selector _ _ _ a q f' ts' d hq hf' hd' hfol =>
        simp only at h
        have hload : ∃ q, w.load (findSourcePackage a i.imports) = .ok q := by
          cases n with
          | zero => simp [getMethods] at h
          | succ n =>
            simp only [getMethods, Res.bind_eq_ok] at h
            obtain ⟨q, hq, _⟩ := h
            exact ⟨q, hq⟩
        obtain ⟨q', hq'⟩ := hload
        have himp := resolve_source hp hl hi.file (by rw [← hi.imports]; exact hq')
        obtain ⟨q0, _, h2, _⟩ := ha _ _ ts a hi.file hd (he ▸ .here)
        have : q' = q := by rw [h2 f q' hi.file himp, h2 f q hi.file hq]
        subst this
        exact ih.get _ _ _ q' r f' ts' hq' h hf' hd' rfl d hfol
    · next a he =>
      rw [he] at hfol
      cases hfol with
      | @alias _ _ ts' d hd' hfol =>
        have hmem : ts' ∈ i.file := by rw [hfile, mem_typeSpecs]; exact hd'
        split at h
        · next ts'' hts =>
          have h1 : ts''.name = ts'.name := by simpa using List.find?_some hts
          have h2 : DeclaredIn f ts'' := by
            rw [← mem_typeSpecs, ← hfile]
            exact List.mem_of_find?_eq_some hts
          obtain ⟨rfl, _⟩ := hu _ _ _ _ _ hi.file hi.file h2 hd' h1
          exact ih.methods _ f ts'' i r hi h2 hfile h d hfol
        · next hnone =>
          have := (List.find?_eq_none.1 hnone) ts' hmem
          simp at this
    · next h1 h2 h3 =>
      exfalso
      generalize ts.type = e at hfol h1 h2 h3
      cases hfol with
      | declared _ _ _ => exact h1 _ rfl
      | embedded _ _ => exact h1 _ rfl
      | alias _ _ => exact h3 _ rfl
      | selector _ _ _ _ => exact h2 _ _ rfl
  get := by
    intro path sel src q r f ts hq h hf hd hn
    simp only [getMethods, hq, Res.ok_bind] at h
    rw [Res.bind_eq_ok] at h
    obtain ⟨files, hfl, h⟩ := h
    rw [Res.bind_eq_ok] at h
    obtain ⟨out, ho, h⟩ := h
    cases h
    exact ih.target _ _ _ _ _ _ _ f ts hfl ho hf hd hn
  iface := by
    intro path f g ms i r hi hf hq h
    simp only [processInterface] at h
    exact (ih.fields _ f g ms i [] r hi hf hq h).2
  fields := by
    intro path f g ms i acc r hi hf hq h
    cases ms with
    | nil =>
      simp only [processFields] at h
      cases h
      refine ⟨fun k hk => hk, ?_⟩
      intro d hfol
      cases hfol with
      | declared h1 _ _ => simp at h1
      | embedded h1 _ => simp at h1
    | cons fd rest =>
      have hq' : ∀ a, Qualifies a (.ifaceT rest) → AgreeAt w i.cur f a := by
        intro a hqa
        cases hqa with
        | elem h1 h2 => exact hq a (.elem (List.mem_cons_of_mem _ h1) h2)
      simp only [processFields] at h
      split at h
      · next ps rs hft =>
        split at h
        · cases h
        · next name names hnames =>
          rw [Res.bind_eq_ok] at h
          obtain ⟨method, hm, h⟩ := h
          obtain ⟨h1, h2⟩ := ih.fields _ f g rest i _ r hi hf hq' h
          refine ⟨fun k hk => h1 k (key_upsert.2 (Or.inr hk)), ?_⟩
          intro d hfol
          cases hfol with
          | declared hm1 hm2 hm3 =>
            rcases List.mem_cons.1 hm1 with rfl | hm1
            · rw [hnames] at hm3
              simp at hm3
              subst hm3
              exact h1 _ (key_upsert.2 (Or.inl rfl))
            · exact h2 _ (.declared hm1 hm2 hm3)
          | embedded hm1 hm2 =>
            rcases List.mem_cons.1 hm1 with rfl | hm1
            · rw [hft] at hm2; cases hm2
            · exact h2 _ (.embedded hm1 hm2)
      · next hft =>
        rw [Res.bind_eq_ok] at h
        obtain ⟨⟨p, emb⟩, he, h⟩ := h
        have hemb := ih.embedded _ f g fd.type i p emb hi hf
          (fun a hqa => hq a (.elem (by simp) hqa)) he
        obtain ⟨h1, h2⟩ := ih.fields _ f g rest i _ r hi hf hq' h
        refine ⟨fun k hk => h1 k (key_merge.2 (Or.inl hk)), ?_⟩
        intro d hfol
        cases hfol with
        | declared hm1 hm2 hm3 =>
          rcases List.mem_cons.1 hm1 with rfl | hm1
          · exact absurd hm2 (hft _ _)
          · exact h2 _ (.declared hm1 hm2 hm3)
        | embedded hm1 hm2 =>
          rcases List.mem_cons.1 hm1 with rfl | hm1
          · exact h1 _ (key_merge.2 (Or.inr (hemb d hm2)))
          · exact h2 _ (.embedded hm1 hm2)
  embedded := by
    intro path f g e i p r hi hf hq h d hfol
    simp only [processEmbedded] at h
    split at h
    · next x idx =>
      rw [Res.bind_eq_ok] at h
      obtain ⟨gps, _, h⟩ := h
      rw [Res.bind_eq_ok] at h
      obtain ⟨⟨p', r'⟩, hr, h⟩ := h
      cases h
      cases hfol with
      | index hnt hfol =>
        exact ih.getEmbedded _ f g x _ p' r' (hi.generics i.genericTypes gps) hf
          (fun a hqa => hq a (.index hqa)) hnt.not_index.1 hnt.not_index.2 hr d hfol
    · next x is =>
      rw [Res.bind_eq_ok] at h
      obtain ⟨gps, _, h⟩ := h
      rw [Res.bind_eq_ok] at h
      obtain ⟨⟨p', r'⟩, hr, h⟩ := h
      cases h
      cases hfol with
      | indexList hnt hfol =>
        exact ih.getEmbedded _ f g x _ p' r' (hi.generics i.genericTypes gps) hf
          (fun a hqa => hq a (.indexList hqa)) hnt.not_index.1 hnt.not_index.2 hr d hfol
    · next h1 h2 =>
      exact ih.getEmbedded _ f g e { i with genericParams := [] } p r (hi.generics i.genericTypes []) hf hq
        h1 h2 h d hfol
  getEmbedded := by
    intro path f g e i p r hi hf hq h1 h2 h d hfol
    simp only [getEmbeddedMethods, Res.bind_eq_ok] at h
    obtain ⟨name, _, h⟩ := h
    split at h
    · next x sel _ =>
      rw [Res.bind_eq_ok] at h
      obtain ⟨r', hr, h⟩ := h
      cases h
      refine ih.selector _ f g x sel i _ hi hf ?_ hr d hfol
      intro a hx
      subst hx
      exact hq a .here
    · next a _ =>
      rw [Res.bind_eq_ok] at h
      obtain ⟨r', hr, h⟩ := h
      cases h
      exact ih.ident _ f g a i _ hi hf hr d hfol
    · next h3 h4 =>
      exfalso
      cases hfol with
      | named _ _ _ => exact h4 _ rfl
      | selector _ _ _ _ => exact h3 _ _ rfl
      | index _ _ => exact h1 _ _ rfl
      | indexList _ _ => exact h2 _ _ rfl
  selector := by
    intro path f g x sel i r hi hf hq h d hfol
    simp only [processSelector] at h
    split at h
    · next a =>
      rw [Res.bind_eq_ok] at h
      obtain ⟨ipath, hip, h⟩ := h
      split at h
      · cases h
      · next q hlk =>
        rw [Res.bind_eq_ok] at h
        obtain ⟨files, hfiles, h⟩ := h
        rw [Res.bind_eq_ok] at h
        obtain ⟨out, ho, h⟩ := h
        cases h
        have himp := resolve_selector hp hi (hq a rfl) (hs.imports path _) hip hlk
        cases hfol with
        | @selector _ _ _ _ q' f' ts' d hq' hf' hd' hfol =>
          obtain ⟨q0, _, h2, _⟩ := hq a rfl
          have : q' = q := by rw [h2 f q' hf hq', h2 f q hf himp]
          subst this
          exact ih.target _ _ _ _ _ _ _ f' ts' hfiles ho hf' hd' rfl d hfol
    · cases h
  ident := by
    intro path f g name i r hi hf h d hfol
    cases hfol with
    | @named _ _ f' ts d hf' hd' hfol =>
      have hmem : ts ∈ i.types := (hi.types ts).2 ⟨f', hf', hd'⟩
      simp only [processIdent, Res.bind_eq_ok] at h
      obtain ⟨fe, hfe, h⟩ := h
      obtain ⟨ms, rfl, hty⟩ := findEmbedded_checked hmem rfl (by
        intro t' ht' hn
        obtain ⟨f2, hf2, hd2⟩ := (hi.types t').1 ht'
        exact (hu _ _ _ _ _ hf2 hf' hd2 hd' hn).1) hfe
      simp only [Res.bind_eq_ok] at h
      obtain ⟨gts, _, h⟩ := h
      exact ih.iface _ f' g ms _ r (hi.generics gts i.genericParams) hf'
        (fun a hqa => ha _ _ ts a hf' hd' (hty ▸ hqa)) h d (hty ▸ hfol)

theorem complete {w : World} {s : Sched} (hs : s.Fair) (hp : PlainImports w) (hl : LoadsImports w)
    (ha : QualifiersAgree w) (hu : UniqueTypes w) : ∀ n, CompleteAt w s n
  | 0 => complete_zero w s
  | n + 1 => complete_succ hs hp hl ha hu (complete hs hp hl ha hu n)

end Gowrap
