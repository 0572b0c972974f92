import Verif.Proofs.ReaderExpr
/-!
# Statements are read
-/

namespace Gowrap.Go.Reader

open Gowrap Go Spec

/-- What follows a statement, possibly in a header. -/
def StmtEnd (lit : Bool) (k : List Tok) : Prop := ∃ o r, k = .op o :: r ∧ (o ∈ [g!";", g!":"] ∨ o = g!"{" ∧ lit = false)

theorem StmtEnd.follows {lit : Bool} {k : List Tok} (h : StmtEnd lit k) : Follows lit k := by
  obtain ⟨o, r, rfl, ho | ⟨rfl, rfl⟩⟩ := h
  · refine follows_op ?_ lit r
    revert o
    decide
  · exact follows_brace r

theorem StmtEnd.ne {lit : Bool} {k : List Tok} (h : StmtEnd lit k) {o : Str} (ho : o ∉ [g!";", g!":", g!"{"]) : headOp k ≠ o := by
  obtain ⟨o', r, rfl, h⟩ := h
  show o' ≠ o
  rintro rfl
  refine ho ?_
  rcases h with h | ⟨rfl, _⟩
  · clear ho
    revert o'
    decide
  · decide

theorem StmtEnd.tail {lit : Bool} {k : List Tok} (h : StmtEnd lit k) : Tail lit k [] k := .inl ⟨h.ne (by decide), h.follows, rfl, rfl⟩

theorem tail_op {o : Str} (h : o ∈ [g!"=", g!":=", g!"++", g!"<-"]) (lit : Bool) (k : List Tok) : Tail lit (.op o :: k) [] (.op o :: k) := by
  refine .inl ⟨?_, follows_op ?_ lit k, rfl, rfl⟩
  · show o ≠ _
    revert o
    decide
  · revert o
    decide

/-- Statements in headers and elsewhere. -/
structure SimpleRead (lit : Bool) (s : Stmt) (k : List Tok) : Prop where
  read : ∃ xs l, Ev (fun n => exprs n lit (s.put k)) (xs, l) ∧ Ev (fun n => simpleRest n lit xs l) (s.normal, k) ∧
    ¬(headOp l = g!":=" ∧ headWord l.tail = g!"range")
  starts : Starts (s.put k)

theorem SimpleRead.simple {lit : Bool} {s : Stmt} {k : List Tok} (h : SimpleRead lit s k) : Ev (fun n => simple n lit (s.put k)) (s.normal, k) := by
  obtain ⟨xs, l, h1, h2, _⟩ := h.read
  exact .of (g := fun n => (exprs n lit (s.put k)).bind fun xs => simpleRest n lit xs.1 xs.2) (fun n => by show Reader.simple (n + 1) lit _ = _; rw [Reader.simple]) (h1.bind h2)

theorem rest_expr {lit : Bool} {k : List Tok} (hk : StmtEnd lit k) (e : Expr) : Ev (fun n => simpleRest n lit [e] k) (.expr e, k) := .now fun n => by
  show simpleRest (n + 1) lit [e] k = _
  rw [simpleRest, if_neg (hk.ne (by decide)), if_neg (hk.ne (by decide))]
  show (if _ then _ else if _ then _ else _) = _
  rw [if_neg (hk.ne (by decide)), if_neg (hk.ne (by decide))]

theorem simple_expr {S : Sources} {lit : Bool} {e : Expr} (he : ReadsE S e) (h : e.Ok S lit 0) {k : List Tok} (hk : StmtEnd lit k) :
    SimpleRead lit (.expr e) k where
  read := ⟨[e.normal], k, exprs_one (he.expr h hk.follows) hk.tail, rest_expr hk _, fun hc => hk.ne (by decide) hc.1⟩
  starts := starts_expr e lit 0 h k

theorem exprs_tidy {S : Sources} {l : List Expr} (hl : ReadsL S l) {lit : Bool} (h : ExprsOk S lit l) (ht : tidy l = true) (hne : flatExprs l ≠ [])
    {k : List Tok} {ys r} (hk : Tail lit k ys r) : Ev (fun n => exprs n lit (putExprs l k)) (normalExprs l ++ ys, r) := by
  rcases tidy_cases ht with ⟨h1, _⟩ | ⟨h1, h2⟩
  · exact absurd h1 hne
  · exact hl.exprs h1 lit h h2 k ys r hk

theorem starts_tidy {S : Sources} {l : List Expr} (hl : ReadsL S l) {lit : Bool} (h : ExprsOk S lit l) (ht : tidy l = true) (hne : flatExprs l ≠ [])
    (k : List Tok) : Starts (putExprs l k) := by
  rcases tidy_cases ht with ⟨h1, _⟩ | ⟨h1, h2⟩
  · exact absurd h1 hne
  · exact hl.starts h1 lit h h2 k

theorem simple_assign {S : Sources} {l r : List Expr} (hl : ReadsL S l) (hr : ReadsL S r) {lit : Bool} (h : (Stmt.assign l r).Ok S lit) {k : List Tok} (hk : StmtEnd lit k) :
    SimpleRead lit (.assign l r) k := by
  simp only [Stmt.Ok] at h
  obtain ⟨⟨h1, h2⟩, ⟨h3, h4⟩, h5, h6⟩ := h
  have hR := exprs_tidy hr h6 h3 h4 hk.tail
  have hL := exprs_tidy hl h5 h1 h2 (tail_op (o := g!"=") (by decide) lit (putExprs r k))
  rw [List.append_nil] at hR hL
  refine ⟨⟨_, _, hL, ?_, fun hc => absurd hc.1 (by show g!"=" ≠ _; decide)⟩, starts_tidy hl h5 h1 h2 _⟩
  refine .of (g := fun n => (exprs n lit (putExprs r k)).map fun y => (.assign (normalExprs l) y.1, y.2)) (fun n => ?_) (hR.map _)
  show simpleRest (n + 1) lit _ (.op g!"=" :: _) = _
  rw [simpleRest.eq_def]
  rfl

theorem simple_define {S : Sources} {l r : List Expr} (hl : ReadsL S l) (hr : ReadsL S r) {lit : Bool} (h : (Stmt.define l r).Ok S lit) {k : List Tok} (hk : StmtEnd lit k) :
    SimpleRead lit (.define l r) k := by
  simp only [Stmt.Ok] at h
  obtain ⟨⟨h1, h2⟩, ⟨h3, h4⟩, _, h5, h6⟩ := h
  have hR := exprs_tidy hr h6 h3 h4 hk.tail
  have hL := exprs_tidy hl h5 h1 h2 (tail_op (o := g!":=") (by decide) lit (putExprs r k))
  rw [List.append_nil] at hR hL
  refine ⟨⟨_, _, hL, ?_, fun hc => (starts_tidy hr h6 h3 h4 k).2 ?_⟩, starts_tidy hl h5 h1 h2 _⟩
  · refine .of (g := fun n => (exprs n lit (putExprs r k)).map fun y => (.define (normalExprs l) y.1, y.2)) (fun n => ?_) (hR.map _)
    show simpleRest (n + 1) lit _ (.op g!":=" :: _) = _
    rw [simpleRest.eq_def]
    rfl
  · have : headWord (putExprs r k) = g!"range" := hc.2
    rw [this]
    decide

theorem expr_any {S : Sources} {e : Expr} {lit : Bool} {q : Nat} (h : e.Ok S lit 7) (hq : q ≤ 7) : e.Ok S lit q := by
  cases e with
  | un op e => simp only [Expr.Ok] at h; omega
  | bin op a b =>
    simp only [Expr.Ok] at h
    cases hp : binPrec op with
    | none => rw [hp] at h; exact h.elim
    | some p =>
      rw [hp] at h
      have := (binPrec_le hp).2.1
      omega
  | call f args c => exact call_any h
  | _ => simpa only [Expr.Ok] using h

theorem simple_inc {S : Sources} {lit : Bool} {e : Expr} (he : ReadsE S e) (h : e.Ok S lit 7) (k : List Tok) : SimpleRead lit (.inc e) k where
  read := ⟨[e.normal], _, exprs_one (he.expr (expr_any h (by decide)) (follows_op (by decide) lit k)) (tail_op (o := g!"++") (by decide) lit k),
    .now fun n => by show simpleRest (n + 1) lit _ (.op g!"++" :: k) = _; rw [simpleRest]; rfl, fun hc => absurd hc.1 (by show g!"++" ≠ _; decide)⟩
  starts := starts_expr e lit 7 h _

theorem simple_send {S : Sources} {lit : Bool} {c v : Expr} (hc : ReadsE S c) (hv : ReadsE S v) (h : c.Ok S lit 0) (h' : v.Ok S lit 0) {k : List Tok} (hk : StmtEnd lit k) :
    SimpleRead lit (.send c v) k where
  read := ⟨[c.normal], _, exprs_one (hc.expr h (follows_op (by decide) lit _)) (tail_op (o := g!"<-") (by decide) lit _),
    .of (g := fun n => (expr n lit 0 (v.put k)).map fun y => (.send c.normal y.1, y.2)) (fun n => by show simpleRest (n + 1) lit _ (.op g!"<-" :: _) = _; rw [simpleRest]; rfl)
      ((hv.expr h' hk.follows).map _), fun hc => absurd hc.1 (by show g!"<-" ≠ _; decide)⟩
  starts := starts_expr c lit 0 h _

/-- The end of the statements of a block or clause. -/
def BodyEnd (k : List Tok) : Prop := headOp k = g!"}" ∨ headWord k = g!"case" ∨ headWord k = g!"default"

/-- The beginnings of statements. -/
def StmtStart (l : List Tok) : Prop := headOp l ≠ g!"}" ∧ headWord l ∉ [g!"case", g!"default", g!"else"]

/-- How statements are read. -/
structure ReadsS (S : Sources) (s : Stmt) : Prop where
  simple : s.Simple → ∀ lit, s.Ok S lit → ∀ k, StmtEnd lit k → SimpleRead lit s k
  cond : s.IsIf → s.Ok S true → ∀ k, ∃ l, s.put (.op g!";" :: k) = .word g!"if" :: l ∧ Ev (fun n => ifStmt n l) (s.normal, .op g!";" :: k)
  stmt : s.Ok S true → ∀ k, Ev (fun n => stmt n (s.put (.op g!";" :: k))) (s.normal, .op g!";" :: k)
  starts : s.Ok S true → ∀ k, StmtStart (s.put (.op g!";" :: k))

/-- How the statements of a block are read. -/
def ReadsB (S : Sources) (ss : List Stmt) : Prop := StmtsOk S ss → ∀ k r, Ev (fun n => stmts n k) r → Ev (fun n => stmts n (putStmts ss k)) (normalStmts ss ++ r.1, r.2)

/-- How a clause is read. -/
structure ReadsC (S : Sources) (c : Clause) : Prop where
  read : c.Ok S → ∀ k r, BodyEnd k → Ev (fun n => clauses n k) r → Ev (fun n => clauses n (c.put k)) (c.normal :: r.1, r.2)

def ReadsCs (S : Sources) (cs : List Clause) : Prop := ClausesOk S cs → ∀ k r, BodyEnd k → Ev (fun n => clauses n k) r →
  Ev (fun n => clauses n (putClauses cs k)) (normalClauses cs ++ r.1, r.2)

theorem stmts_end {k : List Tok} (h : BodyEnd k) : Ev (fun n => stmts n k) ([], k) := .now fun n => by
  show stmts (n + 1) k = _
  rw [stmts]
  exact if_pos h

/-- A block. -/
theorem ReadsB.block {S : Sources} {ss : List Stmt} (hb : ReadsB S ss) (h : StmtsOk S ss) (k : List Tok) :
    Ev (fun n => block n (.op g!"{" :: putStmts ss (.op g!"}" :: k))) (normalStmts ss, k) := by
  have := hb h (.op g!"}" :: k) _ (stmts_end (.inl rfl))
  rw [List.append_nil] at this
  refine .of (g := fun n => (stmts n (putStmts ss (.op g!"}" :: k))).bind (after g!"}")) (fun n => ?_) (this.bind ⟨0, fun _ _ => rfl⟩)
  show Reader.block (n + 1) _ = _
  rw [Reader.block]
  rfl

theorem reads_fn {S : Sources} (hs : SourcesRead S) (ps : List Group) (r : Results) {b : List Stmt} (hb : ReadsB S b) : ReadsE S (.fn ps r b) :=
  .of_prim rfl (fun _ _ h _ => by simpa only [Expr.Ok] using h) fun lit h k x hx => by
    simp only [Expr.Ok] at h
    refine unary_operand (x := ((Expr.fn ps r b).normal, k)) (by show ([] : Str) ∉ _; decide) ?_ hx
    have h1 := ev_params (r.put (.op g!"{" :: putStmts b (.op g!"}" :: k))) (groups_toks hs h.2.1) h.1
    have h2 := ev_results hs (putStmts b (.op g!"}" :: k)) h.2.2.1
    have h3 := hb.block h.2.2.2 k
    refine .of (g := fun n => (params n (putGroups ps (.op g!")" :: r.put (.op g!"{" :: putStmts b (.op g!"}" :: k))))).bind fun ps => (results n ps.2).bind fun rs =>
          (block n rs.2).map fun b => (Expr.fn ps.1 rs.1 b.1, b.2)) (fun n => ?_) (h1.bind (h2.bind (h3.map _)))
    show operand (n + 1) _ = _
    rw [Expr.put, operand]
    rfl

theorem stmt_simple {s : Stmt} {k : List Tok} (hs : SimpleRead true s (.op g!";" :: k)) : Ev (fun n => stmt n (s.put (.op g!";" :: k))) (s.normal, .op g!";" :: k) := by
  have hw := hs.starts.2
  simp only [List.mem_cons, List.not_mem_nil, or_false, not_or] at hw
  refine .of (fun n => ?_) hs.simple
  show stmt (n + 1) _ = _
  rw [stmt, if_neg hw.1, if_neg hw.2.1, if_neg hw.2.2.1, if_neg hw.2.2.2.1, if_neg hw.2.2.2.2.1, if_neg hw.2.2.2.2.2.1, if_neg hw.2.2.2.2.2.2.1, if_neg hw.2.2.2.2.2.2.2.1]

theorem Starts.stmt {l : List Tok} (h : Starts l) : StmtStart l := ⟨h.op (by decide), fun hm => h.2 (by
  revert hm
  generalize headWord l = w
  intro hm
  have : ∀ w ∈ [g!"case", g!"default", g!"else"],
    w ∈ [g!"var", g!"type", g!"return", g!"if", g!"for", g!"defer", g!"go", g!"select", g!"case", g!"default", g!"else", g!"range"] := by decide
  exact this w hm)⟩

theorem end_semi (lit : Bool) (k : List Tok) : StmtEnd lit (.op g!";" :: k) := ⟨_, _, rfl, .inl (by decide)⟩
theorem end_colon (lit : Bool) (k : List Tok) : StmtEnd lit (.op g!":" :: k) := ⟨_, _, rfl, .inl (by decide)⟩
theorem end_brace (k : List Tok) : StmtEnd false (.op g!"{" :: k) := ⟨_, _, rfl, .inr ⟨rfl, rfl⟩⟩

/-- From the way a simple statement is read. -/
theorem ReadsS.of_simple {S : Sources} {s : Stmt} (hi : ¬s.IsIf) (h : ∀ lit, s.Ok S lit → ∀ k, StmtEnd lit k → SimpleRead lit s k) : ReadsS S s where
  simple := fun _ => h
  cond := fun hc => absurd hc hi
  stmt := fun ho k => stmt_simple (h true ho _ (end_semi true k))
  starts := fun ho k => (h true ho _ (end_semi true k)).starts.stmt

theorem Ev.pos {α : Type} {c : Prop} [Decidable c] {f g : Nat → Option α} {a : α} (hc : c) (h : Ev f a) : Ev (fun n => if c then f n else g n) a := by
  simp only [if_pos hc]
  exact h

theorem Ev.neg {α : Type} {c : Prop} [Decidable c] {f g : Nat → Option α} {a : α} (hc : ¬c) (h : Ev g a) : Ev (fun n => if c then f n else g n) a := by
  simp only [if_neg hc]
  exact h

theorem Ev.after {α β : Type} {o : Str} {x : α} {k : List Tok} {g : Nat → α × List Tok → Option β} {a : β} (h : Ev (fun n => g n (x, k)) a) :
    Ev (fun n => (Reader.after o (x, .op o :: k)).bind (g n)) a := by
  have : Reader.after o (x, .op o :: k) = some (x, k) := if_pos rfl
  rw [this]
  exact h

/-- From the way a statement is read that is not simple. -/
theorem ReadsS.of_stmt {S : Sources} {s : Stmt} (h1 : ¬s.Simple) (h2 : ¬s.IsIf)
    (h : s.Ok S true → ∀ k, Ev (fun n => Reader.stmt n (s.put (.op g!";" :: k))) (s.normal, .op g!";" :: k) ∧ StmtStart (s.put (.op g!";" :: k))) : ReadsS S s where
  simple := fun hs => absurd hs h1
  cond := fun hc => absurd hc h2
  stmt := fun ho k => (h ho k).1
  starts := fun ho k => (h ho k).2

theorem ReadsS.of_if {S : Sources} {s : Stmt} (h1 : ¬s.Simple)
    (h : s.Ok S true → ∀ k, ∃ l, s.put (.op g!";" :: k) = .word g!"if" :: l ∧ Ev (fun n => ifStmt n l) (s.normal, .op g!";" :: k)) : ReadsS S s where
  simple := fun hs => absurd hs h1
  cond := fun _ => h
  stmt := fun ho k => by
    obtain ⟨l, hl, he⟩ := h ho k
    rw [hl]
    refine .of (fun n => ?_) he
    show Reader.stmt (n + 1) _ = _
    rw [Reader.stmt]
    rfl
  starts := fun ho k => by
    obtain ⟨l, hl, _⟩ := h ho k
    rw [hl]
    exact ⟨by show ([] : Str) ≠ _; decide, by show g!"if" ∉ _; decide⟩

theorem start_word {w : Str} (h : w ∈ [g!"var", g!"type", g!"return", g!"for", g!"defer", g!"go", g!"select"]) (k : List Tok) : StmtStart (.word w :: k) := by
  refine ⟨by show ([] : Str) ≠ _; decide, ?_⟩
  show w ∉ _
  revert w
  decide

theorem TypeToks.head {l : List Tok} (h : TypeToks l) (k : List Tok) {o : Str} (ho : enter (.op o) = none) (hne : o ≠ []) : headOp (l ++ k) ≠ o := by
  obtain ⟨t, r, rfl, ht, _⟩ := h.begins
  intro e
  cases t with
  | op p =>
    replace e : p = o := e
    subst e
    exact ht ho
  | _ => exact hne e.symm

theorem reads_expr {S : Sources} {e : Expr} (he : ReadsE S e) : ReadsS S (.expr e) :=
  .of_simple (fun h => h) fun lit h k hk => by simp only [Stmt.Ok] at h; exact simple_expr he h.2 hk

theorem reads_assign {S : Sources} {l r : List Expr} (hl : ReadsL S l) (hr : ReadsL S r) : ReadsS S (.assign l r) :=
  .of_simple (fun h => h) fun _ h _ hk => simple_assign hl hr h hk

theorem reads_define {S : Sources} {l r : List Expr} (hl : ReadsL S l) (hr : ReadsL S r) : ReadsS S (.define l r) :=
  .of_simple (fun h => h) fun _ h _ hk => simple_define hl hr h hk

theorem reads_inc {S : Sources} {e : Expr} (he : ReadsE S e) : ReadsS S (.inc e) :=
  .of_simple (fun h => h) fun lit h k hk => by simp only [Stmt.Ok] at h; exact simple_inc he h k

theorem reads_send {S : Sources} {c v : Expr} (hc : ReadsE S c) (hv : ReadsE S v) : ReadsS S (.send c v) :=
  .of_simple (fun h => h) fun lit h k hk => by simp only [Stmt.Ok] at h; exact simple_send hc hv h.1 h.2 hk

theorem reads_var {S : Sources} (hs : SourcesRead S) (x : Str) (t : Ty) : ReadsS S (.var x t) :=
  .of_stmt (fun h => h) (fun h => h) fun h k => ⟨.now fun n => by
    simp only [Stmt.Ok] at h
    have ht := ty_toks hs t h.2
    show stmt (n + 1) (.word g!"var" :: .word x :: t.put _) = _
    rw [t.put_append, stmt]
    show (if headOp (t.put [] ++ _) = g!"=" then _ else _) = _
    rw [if_neg (ht.head _ (by decide) (by decide)), ht.span (stops_semi k)]
    rfl, start_word (by decide) _⟩

theorem reads_varInit {S : Sources} (x : Str) {e : Expr} (he : ReadsE S e) : ReadsS S (.varInit x e) :=
  .of_stmt (fun h => h) (fun h => h) fun h k => ⟨by
    simp only [Stmt.Ok] at h
    refine .of (g := fun n => (expr n true 0 (e.put (.op g!";" :: k))).map fun y => (Stmt.varInit x y.1, y.2)) (fun n => ?_)
      ((he.expr h.2 (end_semi true k).follows).map _)
    show stmt (n + 1) (.word g!"var" :: .word x :: _) = _
    rw [stmt]
    rfl, start_word (by decide) _⟩

theorem reads_typeDecl {S : Sources} (hs : SourcesRead S) (x : Str) (t : Ty) : ReadsS S (.type x t) :=
  .of_stmt (fun h => h) (fun h => h) fun h k => ⟨.now fun n => by
    simp only [Stmt.Ok] at h
    have ht := ty_toks hs t h.2
    show stmt (n + 1) (.word g!"type" :: .word x :: t.put _) = _
    rw [t.put_append, stmt]
    show (Reader.span (t.put [] ++ _)).map _ = _
    rw [ht.span (stops_semi k)]
    rfl, start_word (by decide) _⟩

theorem reads_ret {S : Sources} {es : List Expr} (hl : ReadsL S es) : ReadsS S (.ret es) :=
  .of_stmt (fun h => h) (fun h => h) fun h k => ⟨by
    simp only [Stmt.Ok] at h
    rcases tidy_cases h.1 with ⟨_, h2, h3⟩ | ⟨h1, h2⟩
    · refine .now fun n => ?_
      simp only [Stmt.put, Stmt.normal]
      rw [h2, h3]
      show stmt (n + 1) _ = _
      rw [stmt]
      rfl
    · have := hl.exprs h1 true h.2 h2 _ _ _ (end_semi true k).tail
      rw [List.append_nil] at this
      refine .of (g := fun n => (exprs n true (putExprs es (.op g!";" :: k))).map fun y => (Stmt.ret y.1, y.2)) (fun n => ?_) (this.map _)
      show stmt (n + 1) (.word g!"return" :: _) = _
      rw [stmt]
      exact if_neg ((hl.starts h1 true h.2 h2 (.op g!";" :: k)).op (by decide)), start_word (by decide) _⟩

theorem reads_defer {S : Sources} {e : Expr} (he : ReadsE S e) : ReadsS S (.defer e) :=
  .of_stmt (fun h => h) (fun h => h) fun h k => ⟨by
    simp only [Stmt.Ok] at h
    refine .of (g := fun n => (expr n true 0 (e.put (.op g!";" :: k))).map fun y => (Stmt.defer y.1, y.2)) (fun n => ?_)
      ((he.expr h.2 (end_semi true k).follows).map _)
    show stmt (n + 1) (.word g!"defer" :: _) = _
    rw [stmt]
    rfl, start_word (by decide) _⟩

theorem reads_go {S : Sources} {e : Expr} (he : ReadsE S e) : ReadsS S (.go e) :=
  .of_stmt (fun h => h) (fun h => h) fun h k => ⟨by
    simp only [Stmt.Ok] at h
    refine .of (g := fun n => (expr n true 0 (e.put (.op g!";" :: k))).map fun y => (Stmt.go y.1, y.2)) (fun n => ?_)
      ((he.expr h.2 (end_semi true k).follows).map _)
    show stmt (n + 1) (.word g!"go" :: _) = _
    rw [stmt]
    rfl, start_word (by decide) _⟩

/-- The condition and the first block. -/
theorem if_cond {S : Sources} {c : Expr} {b : List Stmt} (hc : ReadsE S c) (hb : ReadsB S b) (h1 : c.Ok S false 0) (h2 : StmtsOk S b) {k : List Tok} {r}
    (h : Ev (fun n => if headWord k = g!"else" then
          if headWord k.tail = g!"if" then (ifStmt n k.tail.tail).map fun e => (Stmt.condElseIf c.normal (normalStmts b) e.1, e.2)
          else (block n k.tail).map fun e => (Stmt.condElse c.normal (normalStmts b) e.1, e.2)
        else some (Stmt.cond c.normal (normalStmts b), k)) r) :
    Ev (fun n => ifStmt n (c.put (.op g!"{" :: putStmts b (.op g!"}" :: k)))) r := by
  refine .of (fun n => ifStmt.eq_2 _ n) ((simple_expr hc h1 (end_brace (putStmts b (.op g!"}" :: k)))).simple.bind (.neg ?_ ?_))
  · show g!"{" ≠ _
    decide
  · exact (hb.block h2 k).bind h

theorem reads_cond {S : Sources} {c : Expr} {b : List Stmt} (hc : ReadsE S c) (hb : ReadsB S b) : ReadsS S (.cond c b) :=
  .of_if (fun h => h) fun h k => ⟨_, rfl, by
    simp only [Stmt.Ok] at h
    exact if_cond hc hb h.1 h.2 ⟨0, fun n _ => rfl⟩⟩

theorem reads_condElse {S : Sources} {c : Expr} {b b' : List Stmt} (hc : ReadsE S c) (hb : ReadsB S b) (hb' : ReadsB S b') : ReadsS S (.condElse c b b') :=
  .of_if (fun h => h) fun h k => ⟨_, rfl, by
    simp only [Stmt.Ok] at h
    exact if_cond hc hb h.1 h.2.1 ((hb'.block h.2.2 (.op g!";" :: k)).map fun e => (Stmt.condElse c.normal (normalStmts b) e.1, e.2))⟩

theorem reads_condElseIf {S : Sources} {c : Expr} {b : List Stmt} {s : Stmt} (hc : ReadsE S c) (hb : ReadsB S b) (hs : ReadsS S s) : ReadsS S (.condElseIf c b s) :=
  .of_if (fun h => h) fun h k => ⟨_, rfl, by
    simp only [Stmt.Ok] at h
    obtain ⟨l, hl, he⟩ := hs.cond h.2.2.1 h.2.2.2 k
    rw [hl]
    exact if_cond hc hb h.1 h.2.1 (he.map fun e => (Stmt.condElseIf c.normal (normalStmts b) e.1, e.2))⟩

theorem reads_condInit {S : Sources} {i : Stmt} {c : Expr} {b : List Stmt} (hi : ReadsS S i) (hc : ReadsE S c) (hb : ReadsB S b) : ReadsS S (.condInit i c b) :=
  .of_if (fun h => h) fun h k => ⟨_, rfl, by
    simp only [Stmt.Ok] at h
    exact .of (fun n => ifStmt.eq_2 _ n) ((hi.simple h.1 false h.2.1 _ (end_semi false _)).simple.bind (.pos rfl
      ((hc.expr h.2.2.1 (follows_brace _)).bind ((hb.block h.2.2.2 _).map fun b => (Stmt.condInit i.normal c.normal b.1, b.2)))))⟩

theorem stmt_for {l : List Tok} {r} (h : Ev (fun n => forStmt n l) r) : Ev (fun n => stmt n (.word g!"for" :: l)) r := .of (fun n => by
  show stmt (n + 1) (.word g!"for" :: l) = _
  rw [stmt]
  rfl) h

theorem reads_forever {S : Sources} {b : List Stmt} (hb : ReadsB S b) : ReadsS S (.forever b) :=
  .of_stmt (fun h => h) (fun h => h) fun h k => ⟨by
    simp only [Stmt.Ok] at h
    exact stmt_for (.of (fun n => forStmt.eq_2 _ n) (.pos rfl ((hb.block h (.op g!";" :: k)).map fun b => (Stmt.forever b.1, b.2)))), start_word (by decide) _⟩

theorem reads_loop {S : Sources} {i p : Stmt} {c : Expr} {b : List Stmt} (hi : ReadsS S i) (hc : ReadsE S c) (hp : ReadsS S p) (hb : ReadsB S b) :
    ReadsS S (.loop i c p b) :=
  .of_stmt (fun h => h) (fun h => h) fun h k => ⟨by
    simp only [Stmt.Ok] at h
    obtain ⟨h1, h2, h3, h4, h5, h6⟩ := h
    have hI := hi.simple h1 false h2 (.op g!";" :: c.put (.op g!";" :: p.put (.op g!"{" :: putStmts b (.op g!"}" :: .op g!";" :: k)))) (end_semi false _)
    obtain ⟨xs, l, hx, hr, hn⟩ := hI.read
    have hP := (hp.simple h4 false h5 _ (end_brace (putStmts b (.op g!"}" :: .op g!";" :: k)))).simple
    refine stmt_for (.of (fun n => forStmt.eq_2 _ n) (.neg (hI.starts.op (by decide)) (hx.bind (.neg hn (hr.bind (.after ?_))))))
    refine (hc.expr h3 (end_semi false _).follows).bind (.after (hP.bind ?_))
    exact (hb.block h6 _).map fun b => (Stmt.loop i.normal c.normal p.normal b.1, b.2), start_word (by decide) _⟩

theorem name_filled {e : Expr} (h : e.IsName) : e.filled = true := by
  cases e with
  | id x => rfl
  | _ => exact h.elim

theorem reads_range {S : Sources} {xs : List Expr} {e : Expr} {b : List Stmt} (hx : ReadsL S xs) (he : ReadsE S e) (hb : ReadsB S b) : ReadsS S (.range xs e b) :=
  .of_stmt (fun h => h) (fun h => h) fun h k => ⟨by
    simp only [Stmt.Ok] at h
    obtain ⟨h1, _, h2, h3, h4, h5⟩ := h
    have hf : xs.all Expr.filled = true := List.all_eq_true.mpr fun x hx => name_filled (h2 x hx)
    have hX := hx.exprs h1 false h3 hf _ _ _ (tail_op (o := g!":=") (by decide) false (.word g!"range" :: e.put (.op g!"{" :: putStmts b (.op g!"}" :: .op g!";" :: k))))
    rw [List.append_nil] at hX
    refine stmt_for (.of (fun n => forStmt.eq_2 _ n) (.neg ((hx.starts h1 false h3 hf _).op (by decide)) (hX.bind (.pos ⟨rfl, rfl⟩ ?_))))
    exact (he.expr h4 (follows_brace _)).bind ((hb.block h5 _).map fun b => (Stmt.range (normalExprs xs) e.normal b.1, b.2)), start_word (by decide) _⟩

theorem clauses_end (k : List Tok) : Ev (fun n => clauses n (.op g!"}" :: k)) ([], .op g!"}" :: k) := .now fun n => by
  show clauses (n + 1) _ = _
  rw [clauses]
  rfl

theorem reads_select {S : Sources} {cs : List Clause} (hc : ReadsCs S cs) : ReadsS S (.select cs) :=
  .of_stmt (fun h => h) (fun h => h) fun h k => ⟨by
    simp only [Stmt.Ok] at h
    have := hc h _ _ (.inl rfl) (clauses_end (.op g!";" :: k))
    rw [List.append_nil] at this
    refine .of (g := fun n => (clauses n (putClauses cs (.op g!"}" :: .op g!";" :: k))).bind fun c => (after g!"}" c).map fun y => (Stmt.select y.1, y.2)) (fun n => ?_)
      (this.bind ⟨0, fun _ _ => rfl⟩)
    show stmt (n + 1) (.word g!"select" :: .op g!"{" :: _) = _
    rw [stmt]
    rfl, start_word (by decide) _⟩

theorem reads_manyS (S : Sources) (ss : List Stmt) : ReadsS S (.many ss) where
  simple := fun h => h.elim
  cond := fun h => h.elim
  stmt := fun h => by simp only [Stmt.Ok] at h
  starts := fun h => by simp only [Stmt.Ok] at h

theorem reads_case {S : Sources} {s : Stmt} {b : List Stmt} (hs : ReadsS S s) (hb : ReadsB S b) : ReadsC S (.case s b) := ⟨fun h k r hk hr => by
  simp only [Clause.Ok] at h
  have hsim : s.Simple := by
    have h1 := h.1
    cases s <;> first | trivial | exact h1.elim
  have hB := hb h.2.2 k _ (stmts_end hk)
  rw [List.append_nil] at hB
  refine .of (fun n => clauses.eq_2 _ n) (.pos rfl ((hs.simple hsim true h.2.1 _ (end_colon true _)).simple.bind (.after (hB.bind ?_))))
  exact hr.map fun y => (Clause.case s.normal (normalStmts b) :: y.1, y.2)⟩

theorem reads_default {S : Sources} {b : List Stmt} (hb : ReadsB S b) : ReadsC S (.default b) := ⟨fun h k r hk hr => by
  simp only [Clause.Ok] at h
  have hB := hb h k _ (stmts_end hk)
  rw [List.append_nil] at hB
  exact .of (fun n => clauses.eq_2 _ n) (.neg (by show g!"default" ≠ g!"case"; decide) (.pos rfl (.pos rfl (hB.bind
    (hr.map fun y => (Clause.default (normalStmts b) :: y.1, y.2))))))⟩

theorem reads_clauses_nil (S : Sources) : ReadsCs S [] := fun _ _ _ _ h => h

theorem body_clauses {cs : List Clause} {k : List Tok} (hk : BodyEnd k) : BodyEnd (putClauses cs k) := by
  cases cs with
  | nil => exact hk
  | cons c cs =>
    cases c with
    | case s b => exact .inr (.inl rfl)
    | default b => exact .inr (.inr rfl)

theorem reads_clauses_cons {S : Sources} {c : Clause} {cs : List Clause} (hc : ReadsC S c) (hcs : ReadsCs S cs) : ReadsCs S (c :: cs) := fun h k r hk hr => by
  simp only [ClausesOk] at h
  exact hc.read h.1 _ (_, _) (body_clauses hk) (hcs h.2 k r hk hr)

theorem reads_stmts_nil (S : Sources) : ReadsB S [] := fun _ _ _ h => h

theorem reads_stmts_many {S : Sources} {ss r : List Stmt} (h1 : ReadsB S ss) (h2 : ReadsB S r) : ReadsB S (.many ss :: r) := fun h k x hx => by
  simp only [StmtsOk] at h
  simp only [putStmts, Stmt.put, Stmt.isMany, cond_true, normalStmts]
  rw [← putStmts_append, List.append_assoc]
  exact h1 h.1 _ (_, _) (h2 h.2 k x hx)

theorem stmts_more {l k : List Tok} {s : Stmt} (h : StmtStart l) (hs : Ev (fun n => stmt n l) (s, .op g!";" :: k)) {r} (hr : Ev (fun n => stmts n k) r) :
    Ev (fun n => stmts n l) (s :: r.1, r.2) := by
  refine .of (fun n => stmts.eq_2 _ n) (.neg ?_ (hs.bind (.after (hr.map fun y => (s :: y.1, y.2)))))
  have hw := h.2
  simp only [List.mem_cons, List.not_mem_nil, or_false, not_or] at hw
  rintro (hc | hc | hc)
  · exact h.1 hc
  · exact hw.1 hc
  · exact hw.2.1 hc

theorem reads_stmts_cons {S : Sources} {s : Stmt} {ss : List Stmt} (hs : ReadsS S s) (hm : s.isMany = false) (hss : ReadsB S ss)
    (ho : StmtsOk S (s :: ss) → s.Ok S true ∧ StmtsOk S ss) (hn : normalStmts (s :: ss) = s.normal :: normalStmts ss) : ReadsB S (s :: ss) := fun h k r hr => by
  obtain ⟨h1, h2⟩ := ho h
  rw [hn]
  show Ev (fun n => stmts n (s.put (bif s.isMany then putStmts ss k else .op g!";" :: putStmts ss k))) _
  rw [hm]
  exact stmts_more (hs.starts h1 _) (hs.stmt h1 _) (hss h2 k r hr)

/-! ## All of them -/

mutual

theorem read_expr {S : Sources} (hs : SourcesRead S) : ∀ e : Expr, ReadsE S e ∧ ReadsI S e
  | .id x => ⟨reads_id S x, (reads_id S x).item (by simp only [normalExprs]) (fun h => by simpa only [ItemsOk, and_true] using h) fun _ h => by simpa only [ExprsOk, and_true] using h⟩
  | .str x => ⟨reads_str S x, (reads_str S x).item (by simp only [normalExprs]) (fun h => by simpa only [ItemsOk, and_true] using h) fun _ h => by simpa only [ExprsOk, and_true] using h⟩
  | .num x => ⟨reads_num S x, (reads_num S x).item (by simp only [normalExprs]) (fun h => by simpa only [ItemsOk, and_true] using h) fun _ h => by simpa only [ExprsOk, and_true] using h⟩
  | .sel e f =>
    have h := reads_sel (read_expr hs e).1 f
    ⟨h, h.item (by simp only [normalExprs]) (fun h => by simpa only [ItemsOk, and_true] using h) fun _ h => by simpa only [ExprsOk, and_true] using h⟩
  | .call f args c =>
    have h := reads_call hs (read_expr hs f).1 (read_exprs hs args) c
    ⟨h, h.item (by simp only [normalExprs]) (fun h => by simpa only [ItemsOk, and_true] using h) fun _ h => by simpa only [ExprsOk, and_true] using h⟩
  | .spread e => ⟨⟨fun _ h => by simp only [Expr.Ok] at h, fun _ h => by simp only [Expr.Ok] at h, fun _ _ _ h => by simp only [Expr.Ok] at h⟩, item_spread_reads (read_expr hs e).1⟩
  | .index e i =>
    have h := reads_index (read_expr hs e).1 (read_expr hs i).1
    ⟨h, h.item (by simp only [normalExprs]) (fun h => by simpa only [ItemsOk, and_true] using h) fun _ h => by simpa only [ExprsOk, and_true] using h⟩
  | .un op e =>
    have h := reads_un op (read_expr hs e).1
    ⟨h, h.item (by simp only [normalExprs]) (fun h => by simpa only [ItemsOk, and_true] using h) fun _ h => by simpa only [ExprsOk, and_true] using h⟩
  | .bin op a b =>
    have h := reads_bin op (read_expr hs a).1 (read_expr hs b).1
    ⟨h, h.item (by simp only [normalExprs]) (fun h => by simpa only [ItemsOk, and_true] using h) fun _ h => by simpa only [ExprsOk, and_true] using h⟩
  | .paren e =>
    have h := reads_paren (read_expr hs e).1
    ⟨h, h.item (by simp only [normalExprs]) (fun h => by simpa only [ItemsOk, and_true] using h) fun _ h => by simpa only [ExprsOk, and_true] using h⟩
  | .assert e t =>
    have h := reads_assert hs (read_expr hs e).1 t
    ⟨h, h.item (by simp only [normalExprs]) (fun h => by simpa only [ItemsOk, and_true] using h) fun _ h => by simpa only [ExprsOk, and_true] using h⟩
  | .lit t es c =>
    have h := reads_lit hs t (read_exprs hs es) c
    ⟨h, h.item (by simp only [normalExprs]) (fun h => by simpa only [ItemsOk, and_true] using h) fun _ h => by simpa only [ExprsOk, and_true] using h⟩
  | .pair a b => ⟨⟨fun _ h => by simp only [Expr.Ok] at h, fun _ h => by simp only [Expr.Ok] at h, fun _ _ _ h => by simp only [Expr.Ok] at h⟩,
      item_pair_reads (read_expr hs a).1 (read_expr hs b).1⟩
  | .fn ps r b =>
    have h := reads_fn hs ps r (read_stmts hs b)
    ⟨h, h.item (by simp only [normalExprs]) (fun h => by simpa only [ItemsOk, and_true] using h) fun _ h => by simpa only [ExprsOk, and_true] using h⟩
  | .type t => ⟨⟨fun _ h => by simp only [Expr.Ok] at h, fun _ h => by simp only [Expr.Ok] at h, fun _ _ _ h => by simp only [Expr.Ok] at h⟩, item_type_reads hs t⟩
  | .many es => ⟨⟨fun _ h => by simp only [Expr.Ok] at h, fun _ h => by simp only [Expr.Ok] at h, fun _ _ _ h => by simp only [Expr.Ok] at h⟩, item_many_reads (read_exprs hs es)⟩

theorem read_exprs {S : Sources} (hs : SourcesRead S) : ∀ l : List Expr, ReadsL S l
  | [] => reads_nil S
  | e :: es => reads_cons (read_expr hs e).2 (read_exprs hs es)

theorem read_stmt {S : Sources} (hs : SourcesRead S) : ∀ s : Stmt, ReadsS S s
  | .expr e => reads_expr (read_expr hs e).1
  | .assign l r => reads_assign (read_exprs hs l) (read_exprs hs r)
  | .define l r => reads_define (read_exprs hs l) (read_exprs hs r)
  | .inc e => reads_inc (read_expr hs e).1
  | .send c v => reads_send (read_expr hs c).1 (read_expr hs v).1
  | .var x t => reads_var hs x t
  | .varInit x e => reads_varInit x (read_expr hs e).1
  | .type x t => reads_typeDecl hs x t
  | .ret es => reads_ret (read_exprs hs es)
  | .cond c b => reads_cond (read_expr hs c).1 (read_stmts hs b)
  | .condElse c b b' => reads_condElse (read_expr hs c).1 (read_stmts hs b) (read_stmts hs b')
  | .condElseIf c b s => reads_condElseIf (read_expr hs c).1 (read_stmts hs b) (read_stmt hs s)
  | .condInit i c b => reads_condInit (read_stmt hs i) (read_expr hs c).1 (read_stmts hs b)
  | .loop i c p b => reads_loop (read_stmt hs i) (read_expr hs c).1 (read_stmt hs p) (read_stmts hs b)
  | .forever b => reads_forever (read_stmts hs b)
  | .range xs e b => reads_range (read_exprs hs xs) (read_expr hs e).1 (read_stmts hs b)
  | .defer e => reads_defer (read_expr hs e).1
  | .go e => reads_go (read_expr hs e).1
  | .select cs => reads_select (read_clauses hs cs)
  | .many ss => reads_manyS S ss

theorem read_stmts {S : Sources} (hs : SourcesRead S) : ∀ ss : List Stmt, ReadsB S ss
  | [] => reads_stmts_nil S
  | s :: ss => by
    cases s with
    | many r => exact reads_stmts_many (read_stmts hs r) (read_stmts hs ss)
    | _ =>
      refine reads_stmts_cons (read_stmt hs _) rfl (read_stmts hs ss) (fun h => ?_) ?_
      · simpa only [StmtsOk] using h
      · simp only [normalStmts]

theorem read_clause {S : Sources} (hs : SourcesRead S) : ∀ c : Clause, ReadsC S c
  | .case s b => reads_case (read_stmt hs s) (read_stmts hs b)
  | .default b => reads_default (read_stmts hs b)

theorem read_clauses {S : Sources} (hs : SourcesRead S) : ∀ cs : List Clause, ReadsCs S cs
  | [] => reads_clauses_nil S
  | c :: cs => reads_clauses_cons (read_clause hs c) (read_clauses hs cs)

end

end Gowrap.Go.Reader
