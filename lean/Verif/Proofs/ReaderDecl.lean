import Verif.Proofs.ReaderStmt
/-!
# Declarations are read
-/

namespace Gowrap.Go.Reader

open Gowrap Go Spec

/-! ## Fields -/

theorem field_names {l : List Tok} (h : TypeToks l) (k : List Tok) : ∀ xs : List Str, xs ≠ [] →
    Ev (fun n => field n (putNames xs (l ++ .op g!";" :: k))) ((xs, l), .op g!";" :: k)
  | [], h => absurd rfl h
  | [x], _ => .now fun n => by
    show field (n + 1) (.word x :: _) = _
    rw [field, if_neg (h.head _ (by decide) (by decide)), h.span (stops_semi k)]
    rfl
  | x :: y :: ys, _ => .of (g := fun n => (field n (putNames (y :: ys) (l ++ .op g!";" :: k))).map fun y => ((x :: y.1.1, y.1.2), y.2)) (fun n => by
      show field (n + 1) (.word x :: .op g!"," :: _) = _
      rw [field]
      exact if_pos rfl) ((field_names h k (y :: ys) (by simp)).map _)

/-- Fields with names are not embedded. -/
theorem embedded_names {l : List Tok} (h : TypeToks l) (k : List Tok) {xs : List Str} (hne : xs ≠ []) (hx : ∀ x ∈ xs, GoName x) :
    embedded (putNames xs (l ++ k)) = none := by
  cases xs with
  | nil => exact absurd rfl hne
  | cons x xs =>
    cases xs with
    | nil =>
      show embedded (.word x :: (l ++ k)) = _
      obtain ⟨t, r, ht, hsc⟩ := h.after_name (hx x (by simp)) k
      unfold embedded Reader.span
      rw [hsc]
      exact if_neg (enter_not ht r _ (by decide))
    | cons y ys =>
      show embedded ([.word x] ++ .op g!"," :: putNames (y :: ys) (l ++ k)) = _
      unfold embedded
      rw [(TypeToks.of_name (hx x (by simp))).span (stops_comma _)]
      rfl

theorem headOp_type {l : List Tok} (h : TypeToks l) (xs : List Str) (k : List Tok) : headOp (putNames xs (l ++ k)) ≠ g!"}" := by
  by_cases hx : xs = []
  · subst hx
    exact h.head k (by decide) (by decide)
  · rw [headOp_names hx]
    decide

theorem fields_named {l : List Tok} (h : TypeToks l) {xs : List Str} (hne : xs ≠ []) (hx : ∀ x ∈ xs, GoName x) {k : List Tok} {r} (hr : Ev (fun n => fields n k) r) :
    Ev (fun n => fields n (putNames xs (l ++ .op g!";" :: k))) (.named xs (.toks l) :: r.1, r.2) := by
  refine .of (g := fun n => (field n (putNames xs (l ++ .op g!";" :: k))).bind fun f => (after g!";" f).bind fun f =>
    (fields n f.2).map fun y => (.named f.1.1 (.toks f.1.2) :: y.1, y.2)) (fun n => ?_) ((field_names h k xs hne).bind (.after (hr.map fun y => (FieldDecl.named xs (.toks l) :: y.1, y.2))))
  show fields (n + 1) _ = _
  rw [fields, if_neg (headOp_type h xs _), embedded_names h _ hne hx]

theorem fields_embedded {l : List Tok} (h : TypeToks l) {k : List Tok} {r} (hr : Ev (fun n => fields n k) r) :
    Ev (fun n => fields n (l ++ .op g!";" :: k)) (.embedded (.toks l) :: r.1, r.2) := by
  refine .of (g := fun n => (fields n k).map fun y => (.embedded (.toks l) :: y.1, y.2)) (fun n => ?_) (hr.map _)
  have he : embedded (l ++ .op g!";" :: k) = some (l, k) := by
    unfold embedded
    rw [h.span (stops_semi k)]
    rfl
  show fields (n + 1) _ = _
  rw [fields, if_neg (h.head _ (by decide) (by decide)), he]

mutual

theorem read_field {S : Sources} (hs : SourcesRead S) : ∀ f : FieldDecl, f.Ok S → ∀ k r, Ev (fun n => fields n k) r →
    Ev (fun n => fields n (f.put k)) (f.flat.map FieldDecl.normal ++ r.1, r.2)
  | .named xs t, h, k, r, hr => by
    simp only [FieldDecl.Ok] at h
    simp only [FieldDecl.put]
    rw [t.put_append]
    exact fields_named (ty_toks hs t h.2.2) h.1 h.2.1 hr
  | .embedded t, h, k, r, hr => by
    simp only [FieldDecl.Ok] at h
    simp only [FieldDecl.put]
    rw [t.put_append]
    exact fields_embedded (ty_toks hs t h.2) hr
  | .many fs, h, k, r, hr => by
    simp only [FieldDecl.Ok] at h
    simp only [FieldDecl.put, FieldDecl.flat]
    rw [← putFields_append]
    exact read_fields hs fs h k r hr

theorem read_fields {S : Sources} (hs : SourcesRead S) : ∀ fs : List FieldDecl, FieldsOk S fs → ∀ k r, Ev (fun n => fields n k) r →
    Ev (fun n => fields n (putFields fs k)) ((flatFields fs).map FieldDecl.normal ++ r.1, r.2)
  | [], _, _, _, hr => by simp only [putFields, flatFields]; exact hr
  | f :: fs, h, k, r, hr => by
    simp only [FieldsOk] at h
    simp only [putFields, flatFields, List.map_append, List.append_assoc]
    exact read_field hs f h.1 _ (_, _) (read_fields hs fs h.2 k r hr)

end

theorem fields_end (k : List Tok) : Ev (fun n => fields n (.op g!"}" :: k)) ([], .op g!"}" :: k) := .now fun n => by
  show fields (n + 1) _ = _
  rw [fields]
  rfl

/-! ## Imports -/

theorem read_specs (k : List Tok) : ∀ ss : List (Option Str × Str), Ev (fun n => specs n (putSpecs ss (.op g!")" :: k))) (ss, .op g!")" :: k)
  | [] => .now fun n => by show specs (n + 1) (.op g!")" :: k) = _; rw [specs.eq_def]
  | (none, p) :: ss => .of (g := fun n => (specs n (putSpecs ss (.op g!")" :: k))).map fun y => ((none, p) :: y.1, y.2)) (fun n => by
      show specs (n + 1) (.str p :: .op g!";" :: _) = _
      rw [specs.eq_def]
      exact if_pos rfl) ((read_specs k ss).map _)
  | (some x, p) :: ss => .of (g := fun n => (specs n (putSpecs ss (.op g!")" :: k))).map fun y => ((some x, p) :: y.1, y.2)) (fun n => by
      show specs (n + 1) (.word x :: .str p :: .op g!";" :: _) = _
      rw [specs.eq_def]
      exact if_pos rfl) ((read_specs k ss).map _)

/-! ## Declarations -/

theorem decls_cons {l k : List Tok} {d : Decl} {ds : List Decl} (h : Ev (fun n => decl n l) (d, .op g!";" :: k)) (hk : Ev (fun n => decls n k) ds) :
    Ev (fun n => decls n l) (d :: ds) := by
  cases l with
  | nil =>
    obtain ⟨N, hN⟩ := h
    have := hN (N + 1) (by omega)
    exact absurd this (by show decl (N + 1) [] ≠ _; rw [decl]; nofun)
  | cons t l =>
    refine .of (g := fun n => (decl n (t :: l)).bind fun d => (after g!";" d).bind fun d => (decls n d.2).map (d.1 :: ·)) (fun n => ?_)
      (h.bind (.after (hk.map (d :: ·))))
    show decls (n + 1) _ = _
    rw [decls.eq_def]

theorem plain_word {S : Sources} {t : Ty} (hp : t.Plain) (h : t.Ok S) (k : List Tok) : headWord (t.put k) ≠ g!"struct" := by
  cases t with
  | name x =>
    simp only [Ty.Ok] at h
    intro e
    replace e : x = g!"struct" := e
    exact h.2.2 (by rw [e]; decide)
  | qual p x =>
    simp only [Ty.Ok] at h
    intro e
    replace e : p = g!"struct" := e
    exact h.1.2.2 (by rw [e]; decide)
  | ptr t => show ([] : Str) ≠ _; decide
  | slice t => show ([] : Str) ≠ _; decide
  | map a b => show g!"map" ≠ _; decide
  | chan t => show g!"chan" ≠ _; decide
  | func ps r => show g!"func" ≠ _; decide
  | iface ms => show g!"interface" ≠ _; decide
  | _ => exact hp.elim

theorem read_imports (ss : List (Option Str × Str)) (k : List Tok) : Ev (fun n => decl n ((Decl.imports ss).put k)) (.imports ss, .op g!";" :: k) := by
  refine .of (g := fun n => (specs n (putSpecs ss (.op g!")" :: .op g!";" :: k))).bind fun s => (after g!")" s).map fun s => (Decl.imports s.1, s.2)) (fun n => ?_)
    ((read_specs _ ss).bind ⟨0, fun _ _ => rfl⟩)
  show decl (n + 1) (.word g!"import" :: .op g!"(" :: _) = _
  rw [decl]
  rfl

theorem read_struct {S : Sources} (hs : SourcesRead S) (x : Str) (fs : List FieldDecl) (h : FieldsOk S fs) (k : List Tok) :
    Ev (fun n => decl n ((Decl.struct x fs).put k)) ((Decl.struct x fs).normal, .op g!";" :: k) := by
  have := read_fields hs fs h _ _ (fields_end (.op g!";" :: k))
  rw [List.append_nil] at this
  refine .of (g := fun n => (fields n (putFields fs (.op g!"}" :: .op g!";" :: k))).bind fun f => (after g!"}" f).map fun f => (Decl.struct x f.1, f.2)) (fun n => ?_)
    (this.bind ⟨0, fun _ _ => rfl⟩)
  show decl (n + 1) ((Decl.struct x fs).put k) = _
  simp only [Decl.put]
  rw [decl]
  rfl

theorem read_type {S : Sources} (hs : SourcesRead S) (x : Str) (t : Ty) (hp : t.Plain) (h : t.Ok S) (k : List Tok) :
    Ev (fun n => decl n ((Decl.type x t).put k)) ((Decl.type x t).normal, .op g!";" :: k) := .now fun n => by
  show decl (n + 1) ((Decl.type x t).put k) = _
  have hw := plain_word hp h (.op g!";" :: k)
  have ht := ty_toks hs t h
  simp only [Decl.put]
  rw [t.put_append] at hw ⊢
  rw [decl]
  show (if headWord (t.put [] ++ .op g!";" :: k) = g!"struct" then _ else (Reader.span (t.put [] ++ .op g!";" :: k)).map _) = _
  rw [if_neg hw, ht.span (stops_semi k)]
  rfl

theorem read_var {S : Sources} (hs : SourcesRead S) (x : Str) (e : Expr) (h : e.Ok S true 0) (k : List Tok) :
    Ev (fun n => decl n ((Decl.var x e).put k)) ((Decl.var x e).normal, .op g!";" :: k) := by
  refine .of (g := fun n => (expr n true 0 (e.put (.op g!";" :: k))).map fun e => (Decl.var x e.1, e.2)) (fun n => ?_)
    (((read_expr hs e).1.expr h (end_semi true k).follows).map _)
  show decl (n + 1) ((Decl.var x e).put k) = _
  simp only [Decl.put]
  rw [decl]
  rfl

theorem read_func {S : Sources} (hs : SourcesRead S) (x : Str) (ps : List Group) (r : Results) (b : List Stmt) (h : (Decl.func x ps r b).Ok S) (k : List Tok) :
    Ev (fun n => decl n ((Decl.func x ps r b).put k)) ((Decl.func x ps r b).normal, .op g!";" :: k) := by
  simp only [Decl.Ok] at h
  obtain ⟨_, h1, h2, h3, h4⟩ := h
  refine .of (g := fun n => (params n (putGroups ps (.op g!")" :: r.put (.op g!"{" :: putStmts b (.op g!"}" :: .op g!";" :: k))))).bind fun ps =>
    (results n ps.2).bind fun rs => (block n rs.2).map fun b => (Decl.func x ps.1 rs.1 b.1, b.2)) (fun n => ?_)
    ((ev_params _ (groups_toks hs h2) h1).bind ((ev_results hs _ h3).bind (((read_stmts hs b).block h4 _).map _)))
  show decl (n + 1) ((Decl.func x ps r b).put k) = _
  simp only [Decl.put]
  rw [decl]
  rfl

theorem read_method {S : Sources} (hs : SourcesRead S) (r : Str) (t : Ty) (x : Str) (ps rs : List Group) (b : List Stmt) (h : (Decl.method r t x ps rs b).Ok S) (k : List Tok) :
    Ev (fun n => decl n ((Decl.method r t x ps rs b).put k)) ((Decl.method r t x ps rs b).normal, .op g!";" :: k) := by
  simp only [Decl.Ok] at h
  obtain ⟨_, ht, _, _, h1, h2, h3, h4, h5⟩ := h
  have hP := ev_params (.op g!"(" :: putGroups rs (.op g!")" :: .op g!"{" :: putStmts b (.op g!"}" :: .op g!";" :: k))) (groups_toks hs h2) h1
  have hR := ev_params (.op g!"{" :: putStmts b (.op g!"}" :: .op g!";" :: k)) (struct_toks hs h4) h3
  refine .of (g := fun n => (params n (putGroups ps (.op g!")" :: .op g!"(" :: putGroups rs (.op g!")" :: .op g!"{" :: putStmts b (.op g!"}" :: .op g!";" :: k))))).bind fun ps =>
    if headOp ps.2 = g!"(" then (params n ps.2.tail).bind fun rs => (block n rs.2).map fun b => (Decl.method r t x ps.1 rs.1 b.1, b.2) else none) (fun n => ?_)
    (hP.bind (.pos rfl (hR.bind (((read_stmts hs b).block h5 _).map _))))
  show decl (n + 1) ((Decl.method r t x ps rs b).put k) = _
  simp only [Decl.put]
  rw [← putGroups_append rs, ← putGroups_append ps]
  cases t with
  | name y =>
    simp only [Ty.put]
    rw [decl]
    rfl
  | ptr t =>
    cases t with
    | name y =>
      simp only [Ty.put]
      rw [decl]
      rfl
    | _ => exact absurd rfl ht
  | _ => exact absurd rfl ht

mutual

theorem read_decl {S : Sources} (hs : SourcesRead S) : ∀ d : Decl, d.Ok S → ∀ k r, Ev (fun n => decls n k) r →
    Ev (fun n => decls n (d.put k)) (d.flat.map Decl.normal ++ r)
  | .imports ss, _, k, _, hr => by simp only [Decl.flat]; exact decls_cons (read_imports ss k) hr
  | .struct x fs, h, k, _, hr => by simp only [Decl.Ok] at h; simp only [Decl.flat]; exact decls_cons (read_struct hs x fs h.2 k) hr
  | .type x t, h, k, _, hr => by simp only [Decl.Ok] at h; simp only [Decl.flat]; exact decls_cons (read_type hs x t h.2.1 h.2.2 k) hr
  | .var x e, h, k, _, hr => by simp only [Decl.Ok] at h; simp only [Decl.flat]; exact decls_cons (read_var hs x e h.2 k) hr
  | .func x ps r b, h, k, _, hr => by simp only [Decl.flat]; exact decls_cons (read_func hs x ps r b h k) hr
  | .method r t x ps rs b, h, k, _, hr => by simp only [Decl.flat]; exact decls_cons (read_method hs r t x ps rs b h k) hr
  | .many ds, h, k, r, hr => by
    simp only [Decl.Ok] at h
    simp only [Decl.put, Decl.flat]
    rw [← putDecls_append]
    exact read_decls hs ds h k r hr

theorem read_decls {S : Sources} (hs : SourcesRead S) : ∀ ds : List Decl, DeclsOk S ds → ∀ k r, Ev (fun n => decls n k) r →
    Ev (fun n => decls n (putDecls ds k)) ((flatDecls ds).map Decl.normal ++ r)
  | [], _, _, _, hr => by simp only [putDecls, flatDecls]; exact hr
  | d :: ds, h, k, r, hr => by
    simp only [DeclsOk] at h
    simp only [putDecls, flatDecls, List.map_append, List.append_assoc]
    exact read_decl hs d h.1 _ _ (read_decls hs ds h.2 k r hr)

end

/-- The declarations are read. -/
theorem reads_decls {S : Sources} (hs : SourcesRead S) {ds : List Decl} (h : DeclsOk S ds) : Reads (putDecls ds []) (normalDecls ds) := by
  have := read_decls hs ds h [] [] (.now fun n => by show decls (n + 1) [] = _; rw [decls])
  rw [List.append_nil] at this
  exact this

end Gowrap.Go.Reader
