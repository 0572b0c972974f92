import Verif.Model.GoFile
import Verif.Proofs.GoPut
/-!
# What the tokens of a file say about its declarations
-/

namespace Gowrap.Go

open Gowrap

/-- What stands before a field. -/
def FieldStart (q : Tok) : Prop := q = .op g!"{" ∨ q = .op g!";"

theorem FieldDecl.last {p : Tok} (hp : FieldStart p) : ∀ f : FieldDecl, ∃ r q, FieldStart q ∧ p :: f.put [] = r ++ [q]
  | .named xs t => ⟨p :: putNames xs (t.put []), .op g!";", .inr rfl, by
      show p :: putNames xs (t.put [.op g!";"]) = _
      rw [putNames_append xs (t.put [.op g!";"]), putNames_append xs (t.put []), t.put_append [.op g!";"]]
      simp⟩
  | .embedded t => ⟨p :: t.put [], .op g!";", .inr rfl, by
      show p :: t.put [.op g!";"] = _
      rw [t.put_append [.op g!";"]]
      simp⟩
  | .many fs => by
    have := putFields_last hp fs
    rw [show (FieldDecl.many fs).put [] = putFields fs [] ++ [] from rfl, List.append_nil]
    exact this
where
  putFields_last {p : Tok} (hp : FieldStart p) : ∀ fs : List FieldDecl, ∃ r q, FieldStart q ∧ p :: putFields fs [] = r ++ [q]
  | [] => ⟨[], p, hp, rfl⟩
  | f :: fs => by
    obtain ⟨r, q, hq, h⟩ := FieldDecl.last hp f
    obtain ⟨r', q', hq', h'⟩ := putFields_last hq fs
    refine ⟨r ++ r', q', hq', ?_⟩
    show p :: f.put (putFields fs []) = _
    rw [f.put_append, ← List.cons_append, h, List.append_assoc, List.singleton_append, h', List.append_assoc]

theorem FieldDecl.embedded_infix {p : Tok} (hp : FieldStart p) {t : Ty} : ∀ f : FieldDecl, .embedded t ∈ f.flat →
    ∃ q, FieldStart q ∧ q :: t.put [] ++ [.op g!";"] <:+: p :: f.put []
  | .named xs t, h => by simp [FieldDecl.flat] at h
  | .embedded t', h => by
    have h : t = t' := by simpa [FieldDecl.flat] using h
    subst h
    refine ⟨p, hp, ?_⟩
    show _ <:+: p :: t.put [.op g!";"]
    rw [t.put_append [.op g!";"]]
    exact List.infix_rfl
  | .many fs, h => by
    have := fields_infix hp fs (by simpa [FieldDecl.flat] using h)
    rw [show (FieldDecl.many fs).put [] = putFields fs [] ++ [] from rfl, List.append_nil]
    exact this
where
  fields_infix {p : Tok} (hp : FieldStart p) {t : Ty} : ∀ fs : List FieldDecl, .embedded t ∈ flatFields fs →
    ∃ q, FieldStart q ∧ q :: t.put [] ++ [.op g!";"] <:+: p :: putFields fs []
  | [], h => by simp [flatFields] at h
  | f :: fs, h => by
    show ∃ q, FieldStart q ∧ q :: t.put [] ++ [.op g!";"] <:+: p :: f.put (putFields fs [])
    rw [f.put_append]
    rcases List.mem_append.mp h with h | h
    · obtain ⟨q, hq, h1⟩ := FieldDecl.embedded_infix hp f h
      exact ⟨q, hq, h1.trans ⟨[], putFields fs [], by simp⟩⟩
    · obtain ⟨r, q, hq, h1⟩ := FieldDecl.last hp f
      obtain ⟨q', hq', h2⟩ := fields_infix hq fs h
      refine ⟨q', hq', h2.trans ⟨r, [], ?_⟩⟩
      rw [← List.cons_append, h1]
      simp

/-- An embedded field can be seen in the tokens of the file. -/
theorem Decl.embedded_infix {x : Str} {t : Ty} : ∀ d : Decl, ∀ fs, .struct x fs ∈ d.flat → .embedded t ∈ flatFields fs →
    ∃ q, FieldStart q ∧ q :: t.put [] ++ [.op g!";"] <:+: d.put []
  | .struct y gs, fs, h, he => by
    have h : x = y ∧ fs = gs := by simpa [Decl.flat] using h
    obtain ⟨rfl, rfl⟩ := h
    obtain ⟨q, hq, h1⟩ := FieldDecl.embedded_infix.fields_infix (.inl rfl) fs he
    refine ⟨q, hq, h1.trans ⟨[.word g!"type", .word x, .word g!"struct"], [.op g!"}", .op g!";"], ?_⟩⟩
    show _ = _ :: _ :: _ :: _ :: putFields fs _
    rw [putFields_append fs [.op g!"}", .op g!";"]]
    simp
  | .many ds, fs, h, he => by
    obtain ⟨q, hq, h1⟩ := decls_infix ds fs (by simpa [Decl.flat] using h) he
    exact ⟨q, hq, h1.trans ⟨[], [], by simp [Decl.put]⟩⟩
  | .imports _, _, h, _ | .type _ _, _, h, _ | .var _ _, _, h, _ | .func _ _ _ _, _, h, _ | .method _ _ _ _ _ _, _, h, _ => by
    simp [Decl.flat] at h
where
  decls_infix {x : Str} {t : Ty} : ∀ ds : List Decl, ∀ fs, .struct x fs ∈ flatDecls ds → .embedded t ∈ flatFields fs →
    ∃ q, FieldStart q ∧ q :: t.put [] ++ [.op g!";"] <:+: putDecls ds []
  | [], _, h, _ => by simp [flatDecls] at h
  | d :: ds, fs, h, he => by
    rcases List.mem_append.mp h with h | h
    · obtain ⟨q, hq, h1⟩ := Decl.embedded_infix d fs h he
      refine ⟨q, hq, h1.trans ⟨[], putDecls ds [], ?_⟩⟩
      rw [List.nil_append, ← d.put_append]
      rfl
    · obtain ⟨q, hq, h1⟩ := decls_infix ds fs h he
      refine ⟨q, hq, h1.trans ⟨d.put [], [], ?_⟩⟩
      rw [List.append_nil, ← d.put_append]
      rfl

/-- The name of a method occurs in the file. -/
theorem Decl.method_word {r x : Str} {t : Ty} {ps rs : List Group} {b : List Stmt} : ∀ d : Decl, .method r t x ps rs b ∈ d.flat →
    Tok.word x ∈ d.put []
  | .method r' t' x' ps' rs' b', h => by
    have h : r = r' ∧ t = t' ∧ x = x' ∧ ps = ps' ∧ rs = rs' ∧ b = b' := by simpa [Decl.flat] using h
    obtain ⟨rfl, rfl, rfl, rfl, rfl, rfl⟩ := h
    simp only [Decl.put]
    rw [t.put_append]
    simp
  | .many ds, h => by
    have := decls_word ds (by simpa [Decl.flat] using h)
    simpa [Decl.put] using this
  | .imports _, h | .type _ _, h | .var _ _, h | .func _ _ _ _, h | .struct _ _, h => by
    simp [Decl.flat] at h
where
  decls_word {r x : Str} {t : Ty} {ps rs : List Group} {b : List Stmt} : ∀ ds : List Decl, .method r t x ps rs b ∈ flatDecls ds →
    Tok.word x ∈ putDecls ds []
  | [], h => by simp [flatDecls] at h
  | d :: ds, h => by
    show _ ∈ d.put (putDecls ds [])
    rw [d.put_append]
    rcases List.mem_append.mp h with h | h
    · exact List.mem_append_left _ (Decl.method_word d h)
    · exact List.mem_append_right _ (decls_word ds h)

theorem methodsOf_word {t : Str} {ds : List Decl} {x : MethodDecl} (h : x ∈ methodsOf t ds) : Tok.word x.name ∈ putDecls ds [] := by
  obtain ⟨d, hd, hx⟩ := List.mem_filterMap.mp h
  cases d with
  | method r ty y ps rs b =>
    have hx : (if ty.receiver = some t then some (⟨r, ty.pointer, y, ps, rs, b⟩ : MethodDecl) else none) = some x := hx
    by_cases hr : ty.receiver = some t
    · rw [if_pos hr] at hx
      cases hx
      exact Decl.method_word.decls_word ds hd
    · rw [if_neg hr] at hx
      cases hx
  | _ => cases hx

theorem fieldsOf_embedded {t : Str} {ds : List Decl} {l : List Tok} (h : (fieldsOf t ds).any (FieldDecl.embeds l) = true) :
    ∃ q, FieldStart q ∧ q :: l ++ [.op g!";"] <:+: putDecls ds [] := by
  obtain ⟨f, hf, he⟩ := List.any_eq_true.mp h
  unfold fieldsOf at hf
  split at hf
  · rename_i fs hs
    have hm : fs ∈ (flatDecls ds).filterMap (Decl.structOf t) := by rw [hs]; simp
    obtain ⟨d, hd, hx⟩ := List.mem_filterMap.mp hm
    cases d with
    | struct y gs =>
      have hx : (if y = t then some (flatFields gs) else none) = some fs := hx
      by_cases hr : y = t
      · rw [if_pos hr] at hx
        cases hx
        cases f with
        | embedded ty =>
          have hl : ty.put [] = l := by simpa [FieldDecl.embeds] using he
          rw [← hl]
          exact Decl.embedded_infix.decls_infix ds gs hd hf
        | _ => simp [FieldDecl.embeds] at he
      · rw [if_neg hr] at hx
        cases hx
    | _ => cases hx
  · cases hf

end Gowrap.Go
