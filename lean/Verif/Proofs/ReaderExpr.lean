import Verif.Proofs.ReaderSteps
/-!
# Expressions are read
-/

namespace Gowrap.Go.Reader

open Gowrap Go Spec

/-! ## What begins an expression and what follows it -/

/-- The beginnings of expressions. -/
def Starts (l : List Tok) : Prop :=
  headOp l ∈ [] :: g!"(" :: g!"[" :: unaryOps ∧
    headWord l ∉ [g!"var", g!"type", g!"return", g!"if", g!"for", g!"defer", g!"go", g!"select", g!"case", g!"default", g!"else", g!"range"]

theorem Starts.op {l : List Tok} (h : Starts l) {o : Str} (ho : o ∉ [] :: g!"(" :: g!"[" :: unaryOps) : headOp l ≠ o := fun e => ho (e ▸ h.1)

theorem starts_name {x : Str} (h : GoName x) (k : List Tok) : Starts (.word x :: k) :=
  ⟨.head _, fun hm => h.2.2 (by
    have hm : x ∈ [g!"var", g!"type", g!"return", g!"if", g!"for", g!"defer", g!"go", g!"select", g!"case", g!"default", g!"else", g!"range"] := hm
    revert hm
    have : ∀ y ∈ [g!"var", g!"type", g!"return", g!"if", g!"for", g!"defer", g!"go", g!"select", g!"case", g!"default", g!"else", g!"range"], y ∈ keywords := by decide
    exact this x)⟩

theorem starts_word {x : Str} (h : x ∈ [g!"map", g!"chan", g!"struct", g!"interface", g!"func"]) (k : List Tok) : Starts (.word x :: k) := by
  refine ⟨.head _, ?_⟩
  show x ∉ _
  revert x
  decide

theorem starts_op {o : Str} (h : o ∈ g!"(" :: g!"[" :: unaryOps) (k : List Tok) : Starts (.op o :: k) := ⟨.tail _ h, by show ([] : Str) ∉ _; decide⟩

mutual

theorem starts_expr {S : Sources} : ∀ (e : Expr) (lit : Bool) (q : Nat), e.Ok S lit q → ∀ k, Starts (e.put k)
  | .id x, _, _, h, k => by simp only [Expr.Ok] at h; exact starts_name h k
  | .str s, _, _, _, k => ⟨.head _, by show ([] : Str) ∉ _; decide⟩
  | .num s, _, _, _, k => ⟨.head _, by show ([] : Str) ∉ _; decide⟩
  | .sel e f, lit, _, h, k => by simp only [Expr.Ok] at h; exact starts_expr e lit _ h.1 _
  | .call f args c, lit, _, h, k => by
    simp only [Expr.put]
    cases f with
    | type t =>
      cases t with
      | iface ms => exact starts_word (by decide) _
      | _ => simp only [Expr.Ok, Ty.Converts, false_and] at h
    | _ =>
      rw [Expr.Ok] at h
      · exact starts_expr (S := S) _ lit 7 h.1 _
      · nofun
  | .spread _, _, _, h, _ => by simp only [Expr.Ok] at h
  | .index e i, lit, _, h, k => by simp only [Expr.Ok] at h; exact starts_expr e lit _ h.1 _
  | .un op e, _, _, h, k => by simp only [Expr.Ok] at h; exact starts_op (.tail _ (.tail _ h.2.1)) _
  | .bin op a b, lit, _, h, k => by
    simp only [Expr.Ok] at h
    cases hp : binPrec op with
    | none => rw [hp] at h; exact h.elim
    | some p => rw [hp] at h; exact starts_expr a lit _ h.2.1 _
  | .paren e, _, _, _, k => starts_op (.head _) _
  | .assert e t, lit, _, h, k => by simp only [Expr.Ok] at h; exact starts_expr e lit _ h.1 _
  | .lit t es c, _, _, h, k => by
    simp only [Expr.Ok] at h
    have ht := h.2.1
    have hk := h.2.2.1
    cases t with
    | name x => simp only [Ty.Ok] at hk; exact starts_name hk _
    | qual p x => simp only [Ty.Ok] at hk; exact starts_name hk.1 _
    | slice t => exact starts_op (.tail _ (.head _)) _
    | map a b => exact starts_word (by decide) _
    | struct gs => exact starts_word (by decide) _
    | _ => exact ht.elim
  | .pair _ _, _, _, h, _ => by simp only [Expr.Ok] at h
  | .fn ps r b, _, _, _, k => starts_word (by decide) _
  | .type _, _, _, h, _ => by simp only [Expr.Ok] at h
  | .many _, _, _, h, _ => by simp only [Expr.Ok] at h

end

/-- Nothing that belongs to the operand follows. -/
def NoSuffix (lit : Bool) (k : List Tok) : Prop := ∃ o r, k = .op o :: r ∧ o ∉ [g!".", g!"(", g!"["] ∧ (o = g!"{" → lit = false)

theorem suffix_stop {lit : Bool} {k : List Tok} (h : NoSuffix lit k) (e : Expr) : Ev (fun n => suffix n lit e k) (e, k) := .now fun n => by
  obtain ⟨o, r, rfl, ho, hb⟩ := h
  simp only [List.mem_cons, List.not_mem_nil, or_false, not_or] at ho
  show suffix (n + 1) lit e (.op o :: r) = _
  rw [suffix]
  rw [if_neg (c := headOp (.op o :: r) = _) ho.1, if_neg (c := headOp (.op o :: r) = _) ho.2.1, if_neg (c := headOp (.op o :: r) = _) ho.2.2, if_neg]
  rintro ⟨h', h⟩
  exact absurd h (by rw [hb h']; decide)

/-- What follows an expression. -/
def Follows (lit : Bool) (k : List Tok) : Prop := NoSuffix lit k ∧ binPrec (headOp k) = none

theorem follows_op {o : Str} (h : o ∈ [g!",", g!")", g!"}", g!"]", g!";", g!":", g!"...", g!"=", g!":=", g!"++", g!"<-"]) (lit : Bool) (k : List Tok) :
    Follows lit (.op o :: k) := by
  have : (o ∉ [g!".", g!"(", g!"["] ∧ o ≠ g!"{") ∧ binPrec o = none := by
    revert o
    decide
  exact ⟨⟨o, k, rfl, this.1.1, fun e => absurd e this.1.2⟩, this.2⟩

theorem follows_brace (k : List Tok) : Follows false (.op g!"{" :: k) := ⟨⟨_, _, rfl, by decide, fun _ => rfl⟩, by show binPrec g!"{" = none; decide⟩

theorem binary_stop {lit : Bool} {q : Nat} {k : List Tok} (h : ∀ p, binPrec (headOp k) = some p → p < q) (e : Expr) :
    Ev (fun n => binary n lit q e k) (e, k) := .now fun n => by
  show binary (n + 1) lit q e k = _
  rw [binary]
  cases hp : binPrec (headOp k) with
  | none => rfl
  | some p => exact if_neg (by have := h p hp; omega)

theorem binary_more {lit : Bool} {q p : Nat} {op : Str} (hp : binPrec op = some p) (hq : q ≤ p) {a b : Expr} {l k : List Tok} {r}
    (hb : Ev (fun n => expr n lit (p + 1) l) (b, k)) (hr : Ev (fun n => binary n lit q (.bin op a b) k) r) :
    Ev (fun n => binary n lit q a (.op op :: l)) r :=
  .of (g := fun n => (expr n lit (p + 1) l).bind fun y => binary n lit q (.bin op a y.1) y.2) (fun n => by
    show binary (n + 1) lit q a (.op op :: l) = _
    rw [binary]
    show (match binPrec op with | some p => _ | none => _) = _
    rw [hp]
    exact if_pos hq) (hb.bind hr)

/-! ## Expressions -/

/-- The precedence of the operator of the expression. -/
def root : Expr → Nat
  | .bin op _ _ => (binPrec op).getD 0
  | _ => 6

/-- How expressions are read. -/
structure ReadsE (S : Sources) (e : Expr) : Prop where
  /-- operands -/
  prim : ∀ lit, e.Ok S lit 7 → ∀ k r, Ev (fun n => suffix n lit e.normal k) r → Ev (fun n => unary n lit (e.put k)) r
  un : ∀ lit, e.Ok S lit 6 → ∀ k, NoSuffix lit k → Ev (fun n => unary n lit (e.put k)) (e.normal, k)
  bin : ∀ lit q q', e.Ok S lit q → q' ≤ q → ∀ k, NoSuffix lit k → (∀ p, binPrec (headOp k) = some p → p ≤ root e) →
    ∀ r, Ev (fun n => binary n lit q' e.normal k) r → Ev (fun n => expr n lit q' (e.put k)) r

theorem binPrec_le {op : Str} {p : Nat} (h : binPrec op = some p) : 1 ≤ p ∧ p ≤ 5 ∧ op ∉ [g!".", g!"(", g!"[", g!"{"] := by
  have hle : 1 ≤ p ∧ p ≤ 5 := by
    unfold binPrec at h
    repeat' split at h
    all_goals cases h
    all_goals decide
  refine ⟨hle.1, hle.2, fun hm => ?_⟩
  · have : ∀ o ∈ [g!".", g!"(", g!"[", g!"{"], binPrec o = none := by decide
    rw [this op hm] at h
    cases h

theorem ReadsE.expr {S : Sources} {e : Expr} (he : ReadsE S e) {lit : Bool} (h : e.Ok S lit 0) {k : List Tok} (hk : Follows lit k) :
    Ev (fun n => expr n lit 0 (e.put k)) (e.normal, k) :=
  he.bin lit 0 0 h (Nat.le_refl _) k hk.1 (fun p hp => by rw [hk.2] at hp; cases hp) _ (binary_stop (fun p hp => by rw [hk.2] at hp; cases hp) _)

/-- From the way an operand with unary operators is read. -/
theorem ReadsE.of_un {S : Sources} {e : Expr} (hr : root e = 6) (h6 : ∀ lit q, e.Ok S lit q → e.Ok S lit 6)
    (prim : ∀ lit, e.Ok S lit 7 → ∀ k r, Ev (fun n => suffix n lit e.normal k) r → Ev (fun n => unary n lit (e.put k)) r)
    (un : ∀ lit, e.Ok S lit 6 → ∀ k, NoSuffix lit k → Ev (fun n => unary n lit (e.put k)) (e.normal, k)) : ReadsE S e where
  prim := prim
  un := un
  bin := fun lit q q' h hq k hk hp r hb =>
    .of (g := fun n => (unary n lit (e.put k)).bind fun x => binary n lit q' x.1 x.2) (fun n => by show Reader.expr (n + 1) lit q' _ = _; rw [Reader.expr])
      ((un lit (h6 lit q h) k hk).bind hb)

theorem ReadsE.of_prim {S : Sources} {e : Expr} (hr : root e = 6) (h7 : ∀ lit q, e.Ok S lit q → ∀ q', e.Ok S lit q')
    (prim : ∀ lit, e.Ok S lit 7 → ∀ k r, Ev (fun n => suffix n lit e.normal k) r → Ev (fun n => unary n lit (e.put k)) r) : ReadsE S e :=
  .of_un hr (fun lit q h => h7 lit q h 6) prim fun lit h k hk => prim lit (h7 lit 6 h 7) k _ (suffix_stop hk _)

theorem unary_operand {lit : Bool} {l : List Tok} (h : headOp l ∉ unaryOps) {x} {r} (ho : Ev (fun n => operand n l) x) (hr : Ev (fun n => suffix n lit x.1 x.2) r) :
    Ev (fun n => unary n lit l) r :=
  .of (g := fun n => (operand n l).bind fun x => suffix n lit x.1 x.2) (fun n => by show unary (n + 1) lit l = _; rw [unary, if_neg h]) (ho.bind hr)

theorem operand_name {x : Str} (h : GoName x) (k : List Tok) : Ev (fun n => operand n (.word x :: k)) (.id x, k) := .now fun n => by
  have hk := h.2.2
  have ne : ∀ k ∈ keywords, x ≠ k := fun k hm e => hk (e ▸ hm)
  show operand (n + 1) (.word x :: k) = _
  rw [operand]
  rw [if_neg (ne _ (by decide)), if_neg, if_neg hk]
  intro hm
  have : ∀ y ∈ typeWords, y ∈ keywords := by decide
  exact hk (this x hm)

theorem reads_id (S : Sources) (x : Str) : ReadsE S (.id x) :=
  .of_prim rfl (fun _ _ h _ => by simpa only [Expr.Ok] using h) fun lit h k r hr => by
    simp only [Expr.Ok] at h
    exact unary_operand (by show ([] : Str) ∉ _; decide) (operand_name h k) hr

theorem reads_str (S : Sources) (s : Str) : ReadsE S (.str s) :=
  .of_prim rfl (fun _ _ _ _ => trivial) fun lit h k r hr => unary_operand (by show ([] : Str) ∉ _; decide) (.now fun n => rfl) hr

theorem reads_num (S : Sources) (s : Str) : ReadsE S (.num s) :=
  .of_prim rfl (fun _ _ _ _ => trivial) fun lit h k r hr => unary_operand (by show ([] : Str) ∉ _; decide) (.now fun n => rfl) hr

theorem suffix_sel {lit : Bool} {e : Expr} {f : Str} {k : List Tok} {r} (h : Ev (fun n => suffix n lit (.sel e f) k) r) :
    Ev (fun n => suffix n lit e (.op g!"." :: .word f :: k)) r := .of (fun n => by
  show suffix (n + 1) lit e _ = _
  rw [suffix]
  rfl) h

theorem reads_sel {S : Sources} {e : Expr} (he : ReadsE S e) (f : Str) : ReadsE S (.sel e f) :=
  .of_prim rfl (fun _ _ h _ => by simpa only [Expr.Ok] using h) fun lit h k r hr => by
    simp only [Expr.Ok] at h
    exact he.prim lit h.1 _ _ (suffix_sel hr)

theorem suffix_index {lit : Bool} {e i : Expr} {l k : List Tok} {r} (hi : Ev (fun n => expr n true 0 l) (i, .op g!"]" :: k))
    (h : Ev (fun n => suffix n lit (.index e i) k) r) : Ev (fun n => suffix n lit e (.op g!"[" :: l)) r :=
  .of (g := fun n => (expr n true 0 l).bind fun x => (after g!"]" x).bind fun y => suffix n lit (.index e y.1) y.2) (fun n => by
    show suffix (n + 1) lit e _ = _
    rw [suffix]
    rfl) (hi.bind h)

theorem reads_index {S : Sources} {e i : Expr} (he : ReadsE S e) (hi : ReadsE S i) : ReadsE S (.index e i) :=
  .of_prim rfl (fun _ _ h _ => by simpa only [Expr.Ok] using h) fun lit h k r hr => by
    simp only [Expr.Ok] at h
    exact he.prim lit h.1 _ _ (suffix_index (hi.expr h.2 (follows_op (by decide) true k)) hr)

theorem suffix_assert {lit : Bool} {e : Expr} {t : List Tok} (ht : TypeToks t) {k : List Tok} {r}
    (h : Ev (fun n => suffix n lit (.assert e (.toks t)) k) r) : Ev (fun n => suffix n lit e (.op g!"." :: .op g!"(" :: (t ++ .op g!")" :: k))) r := .of (fun n => by
  show suffix (n + 1) lit e _ = _
  rw [suffix]
  show (Reader.span (t ++ _ :: k)).bind _ = _
  rw [ht.span (stops_paren k)]
  rfl) h

theorem reads_assert {S : Sources} (hs : SourcesRead S) {e : Expr} (he : ReadsE S e) (t : Ty) : ReadsE S (.assert e t) :=
  .of_prim rfl (fun _ _ h _ => by simpa only [Expr.Ok] using h) fun lit h k r hr => by
    simp only [Expr.Ok] at h
    show Ev (fun n => unary n lit (e.put (_ :: _ :: t.put _))) _
    rw [t.put_append]
    exact he.prim lit h.1 _ _ (suffix_assert (ty_toks hs t h.2) hr)

theorem reads_paren {S : Sources} {e : Expr} (he : ReadsE S e) : ReadsE S (.paren e) :=
  .of_prim rfl (fun _ _ h _ => by simpa only [Expr.Ok] using h) fun lit h k r hr => by
    simp only [Expr.Ok] at h
    refine unary_operand (by show g!"(" ∉ _; decide) (x := (.paren e.normal, k)) ?_ hr
    refine .of (g := fun n => (expr n true 0 (e.put (.op g!")" :: k))).bind fun x => (after g!")" x).map fun y => (Expr.paren y.1, y.2)) (fun n => ?_)
      ((he.expr h (follows_op (by decide) true k)).bind ⟨0, fun _ _ => rfl⟩)
    show operand (n + 1) _ = _
    rw [Expr.put, operand]
    rfl

theorem reads_un {S : Sources} (op : Str) {e : Expr} (he : ReadsE S e) : ReadsE S (.un op e) := by
  refine .of_un rfl (fun _ _ h => ?_) (fun lit h => ?_) fun lit h k hk => ?_
  · simp only [Expr.Ok] at h ⊢; exact ⟨Nat.le_refl _, h.2⟩
  · simp only [Expr.Ok] at h; omega
  · simp only [Expr.Ok] at h
    refine .of (g := fun n => (unary n lit (e.put k)).map fun y => (Expr.un op y.1, y.2)) (fun n => ?_) ((he.un lit h.2.2 k hk).map _)
    show unary (n + 1) lit (.op op :: _) = _
    rw [unary]
    exact if_pos h.2.1

theorem root_le {S : Sources} {e : Expr} {lit : Bool} {q : Nat} (h : e.Ok S lit q) (hq : q ≤ 6) : q ≤ root e := by
  cases e with
  | bin op a b =>
    simp only [Expr.Ok] at h
    show q ≤ (binPrec op).getD 0
    cases hp : binPrec op with
    | none => rw [hp] at h; exact h.elim
    | some p => rw [hp] at h; exact h.1
  | _ => exact hq

theorem reads_bin {S : Sources} (op : Str) {a b : Expr} (ha : ReadsE S a) (hb : ReadsE S b) : ReadsE S (.bin op a b) := by
  have key : ∀ lit q, (Expr.bin op a b).Ok S lit q → ∃ p, binPrec op = some p ∧ q ≤ p ∧ a.Ok S lit p ∧ b.Ok S lit (p + 1) := by
    intro lit q h
    simp only [Expr.Ok] at h
    cases hp : binPrec op with
    | none => rw [hp] at h; exact h.elim
    | some p => rw [hp] at h; exact ⟨p, rfl, h⟩
  refine ⟨fun lit h => ?_, fun lit h => ?_, fun lit q q' h hq k hk hpk r hr => ?_⟩
  · obtain ⟨p, hp, h, _⟩ := key _ _ h
    have := (binPrec_le hp).2.1
    omega
  · obtain ⟨p, hp, h, _⟩ := key _ _ h
    have := (binPrec_le hp).2.1
    omega
  · obtain ⟨p, hp, hqp, hao, hbo⟩ := key _ _ h
    obtain ⟨_, hp5, hop⟩ := binPrec_le hp
    simp only [List.mem_cons, List.not_mem_nil, or_false, not_or] at hop
    have hr' : root (.bin op a b) = p := by show (binPrec op).getD 0 = p; rw [hp]; rfl
    rw [hr'] at hpk
    have hk' : NoSuffix lit (.op op :: b.put k) := ⟨op, _, rfl, by simp [hop], fun e => absurd e hop.2.2.2⟩
    refine ha.bin lit p q' hao (by omega) _ hk' (fun p' hp' => ?_) r (binary_more hp (by omega) (hb.bin lit (p + 1) (p + 1) hbo (Nat.le_refl _) k hk ?_ _ (binary_stop ?_ _)) hr)
    · replace hp' : binPrec op = some p' := hp'
      rw [hp] at hp'
      obtain rfl := Option.some.inj hp'
      exact root_le hao (by omega)
    · intro p' hp'
      have := hpk p' hp'
      have := root_le hbo (by omega)
      omega
    · intro p' hp'
      have := hpk p' hp'
      omega

/-! ## Lists -/

/-- Arguments or elements. -/
def ItemsOk (S : Sources) : List Expr → Prop
  | [] => True
  | .spread e :: es => e.Ok S true 0 ∧ ItemsOk S es
  | .type t :: es => (t.Made ∧ t.Ok S) ∧ ItemsOk S es
  | .pair k v :: es => (k.Ok S true 0 ∧ v.Ok S true 0) ∧ ItemsOk S es
  | .many es' :: es => ItemsOk S es' ∧ ItemsOk S es
  | e :: es => e.Ok S true 0 ∧ ItemsOk S es

mutual

theorem args_items {S : Sources} : ∀ (es : List Expr) (last : Prop), ArgsOk S last es → ItemsOk S es
  | [], _, _ => by simp only [ItemsOk]
  | e :: es, last, h => by
    cases e with
    | spread e => simp only [ArgsOk] at h; obtain ⟨_, rfl, h⟩ := h; simp only [ItemsOk]; exact ⟨h, trivial⟩
    | type t => simp only [ArgsOk] at h; simp only [ItemsOk]; exact ⟨h.1, args_items es last h.2⟩
    | many es' => simp only [ArgsOk] at h; simp only [ItemsOk]; exact ⟨args_items es' _ h.1, args_items es last h.2⟩
    | pair a b => simp only [ArgsOk, Expr.Ok, false_and] at h
    | _ => simp only [ArgsOk] at h; simp only [ItemsOk]; exact ⟨h.1, args_items es last h.2⟩

end

mutual

theorem elems_items {S : Sources} : ∀ (es : List Expr), ElemsOk S es → ItemsOk S es
  | [], _ => by simp only [ItemsOk]
  | e :: es, h => by
    cases e with
    | pair a b => simp only [ElemsOk] at h; simp only [ItemsOk]; exact ⟨⟨h.1, h.2.1⟩, elems_items es h.2.2⟩
    | many es' => simp only [ElemsOk] at h; simp only [ItemsOk]; exact ⟨elems_items es' h.1, elems_items es h.2⟩
    | type t => simp only [ElemsOk, Expr.Ok, false_and] at h
    | spread t => simp only [ElemsOk, Expr.Ok, false_and] at h
    | _ => simp only [ElemsOk] at h; simp only [ItemsOk]; exact ⟨h.1, elems_items es h.2⟩

end

/-- What follows an argument or element. -/
def ItemEnd (k : List Tok) : Prop := ∃ o r, k = .op o :: r ∧ o ∈ [g!",", g!")", g!"}"]

theorem ItemEnd.follows {k : List Tok} (h : ItemEnd k) : Follows true k := by
  obtain ⟨o, r, rfl, ho⟩ := h
  refine follows_op ?_ true r
  revert o
  decide

/-- What follows an expression of a list. -/
def Tail (lit : Bool) (k : List Tok) (ys : List Expr) (r : List Tok) : Prop :=
  (headOp k ≠ g!"," ∧ Follows lit k ∧ ys = [] ∧ r = k) ∨ ∃ k', k = .op g!"," :: k' ∧ Ev (fun n => exprs n lit k') (ys, r)

theorem Tail.follows {lit : Bool} {k : List Tok} {ys r} (h : Tail lit k ys r) : Follows lit k := by
  rcases h with h | ⟨k', rfl, _⟩
  · exact h.2.1
  · exact follows_op (by decide) lit k'

def brackets : List Str := [g!")", g!"}"]

/-- How an element of a list is read. -/
structure ReadsI (S : Sources) (e : Expr) : Prop where
  more : ItemsOk S [e] → e.filled = true → ∀ close ∈ brackets, ∀ k r, ItemEnd k → Ev (fun n => rest n close k) r →
    Ev (fun n => more n close (e.put k)) (normalExprs [e] ++ r.1, r.2)
  exprs : ∀ lit, ExprsOk S lit [e] → e.filled = true → ∀ k ys r, Tail lit k ys r → Ev (fun n => exprs n lit (e.put k)) (normalExprs [e] ++ ys, r)
  items : ItemsOk S [e] → e.filled = true → ∀ k, Starts (e.put k)
  starts : ∀ lit, ExprsOk S lit [e] → e.filled = true → ∀ k, Starts (e.put k)

/-- How a list is read. -/
structure ReadsL (S : Sources) (l : List Expr) : Prop where
  more : l ≠ [] → ItemsOk S l → l.all Expr.filled = true → ∀ close ∈ brackets, ∀ k r, ItemEnd k → Ev (fun n => rest n close k) r →
    Ev (fun n => more n close (putExprs l k)) (normalExprs l ++ r.1, r.2)
  exprs : l ≠ [] → ∀ lit, ExprsOk S lit l → l.all Expr.filled = true → ∀ k ys r, Tail lit k ys r →
    Ev (fun n => exprs n lit (putExprs l k)) (normalExprs l ++ ys, r)
  items : l ≠ [] → ItemsOk S l → l.all Expr.filled = true → ∀ k, Starts (putExprs l k)
  starts : l ≠ [] → ∀ lit, ExprsOk S lit l → l.all Expr.filled = true → ∀ k, Starts (putExprs l k)

theorem normalExprs_cons (e : Expr) (es : List Expr) : normalExprs (e :: es) = normalExprs [e] ++ normalExprs es := by
  cases e <;> simp only [normalExprs, List.append_nil, List.cons_append, List.nil_append]

theorem items_cons {S : Sources} {e : Expr} {es : List Expr} (h : ItemsOk S (e :: es)) : ItemsOk S [e] ∧ ItemsOk S es := by
  cases e <;> simp only [ItemsOk, and_true] at h ⊢ <;> exact h

theorem exprs_cons {S : Sources} {lit : Bool} {e : Expr} {es : List Expr} (h : ExprsOk S lit (e :: es)) : ExprsOk S lit [e] ∧ ExprsOk S lit es := by
  cases e <;> simp only [ExprsOk, and_true] at h ⊢ <;> exact h

theorem reads_nil (S : Sources) : ReadsL S [] := ⟨fun h => absurd rfl h, fun h => absurd rfl h, fun h => absurd rfl h, fun h => absurd rfl h⟩

theorem reads_cons {S : Sources} {e : Expr} {es : List Expr} (he : ReadsI S e) (hes : ReadsL S es) : ReadsL S (e :: es) where
  more := by
    intro _ h hf close hc k r hk hr
    obtain ⟨h1, h2⟩ := items_cons h
    rw [List.all_cons, Bool.and_eq_true] at hf
    rw [normalExprs_cons, List.append_assoc]
    show Ev (fun n => Reader.more n close (e.put (putRest es k))) _
    refine he.more h1 hf.1 close hc _ (_, _) ?_ ?_
    · cases es with
      | nil => exact hk
      | cons e' es' => exact ⟨_, _, rfl, by decide⟩
    · cases es with
      | nil => exact hr
      | cons e' es' =>
        refine .of (fun n => ?_) (hes.more (by simp) h2 hf.2 close hc k r hk hr)
        have hs := hes.items (by simp) h2 hf.2 k
        show rest (n + 1) close (.op g!"," :: putExprs (e' :: es') k) = _
        rw [rest, if_neg, if_pos (c := headOp (.op g!"," :: putExprs (e' :: es') k) = g!",") rfl, if_neg]
        · rfl
        · refine hs.op ?_
          clear hr
          revert close
          decide
        · show g!"," ≠ close
          clear hr
          revert close
          decide
  exprs := by
    intro _ lit h hf k ys r ht
    obtain ⟨h1, h2⟩ := exprs_cons h
    rw [List.all_cons, Bool.and_eq_true] at hf
    rw [normalExprs_cons, List.append_assoc]
    show Ev (fun n => Reader.exprs n lit (e.put (putRest es k))) _
    refine he.exprs lit h1 hf.1 _ _ _ ?_
    cases es with
    | nil => exact ht
    | cons e' es' => exact .inr ⟨_, rfl, hes.exprs (by simp) lit h2 hf.2 k ys r ht⟩
  items := by
    intro _ h hf k
    rw [List.all_cons, Bool.and_eq_true] at hf
    exact he.items (items_cons h).1 hf.1 _
  starts := by
    intro _ lit h hf k
    rw [List.all_cons, Bool.and_eq_true] at hf
    exact he.starts lit (exprs_cons h).1 hf.1 _

/-- From the way it is read, with `...` or a value after it. -/
theorem more_item {close : Str} {l k : List Tok} {e : Expr} {r} (h : Ev (fun n => item n l) (e, k)) (hr : Ev (fun n => rest n close k) r) :
    Ev (fun n => more n close l) (e :: r.1, r.2) :=
  .of (g := fun n => (item n l).bind fun x => (rest n close x.2).map fun y => (x.1 :: y.1, y.2)) (fun n => by show more (n + 1) close l = _; rw [more])
    (h.bind (hr.map _))

/-- What follows the expression of an element. -/
def itemRest (n : Nat) (x : Expr × List Tok) : Option (Expr × List Tok) :=
  if headOp x.2 = g!"..." then some (.spread x.1, x.2.tail)
  else if headOp x.2 = g!":" then (expr n true 0 x.2.tail).map fun y => (.pair x.1 y.1, y.2)
  else some x

theorem item_plain {l k : List Tok} {e : Expr} (h : Ev (fun n => expr n true 0 l) (e, k)) (hk : ItemEnd k) : Ev (fun n => item n l) (e, k) :=
  .of (g := fun n => (expr n true 0 l).bind (itemRest n)) (fun n => by show item (n + 1) l = _; rw [item]; rfl)
    (h.bind ⟨0, fun n _ => by
      obtain ⟨o, r, rfl, ho⟩ := hk
      show (if headOp (.op o :: r) = _ then _ else if headOp (.op o :: r) = _ then _ else _) = _
      rw [if_neg, if_neg]
      · show o ≠ _
        rintro rfl
        revert ho
        decide
      · show o ≠ _
        rintro rfl
        revert ho
        decide⟩)

theorem item_spread {l k : List Tok} {e : Expr} (h : Ev (fun n => expr n true 0 l) (e, .op g!"..." :: k)) : Ev (fun n => item n l) (.spread e, k) :=
  .of (g := fun n => (expr n true 0 l).bind (itemRest n)) (fun n => by show item (n + 1) l = _; rw [item]; rfl)
    (h.bind ⟨0, fun n _ => rfl⟩)

theorem item_pair {l l' k : List Tok} {a b : Expr} (h : Ev (fun n => expr n true 0 l) (a, .op g!":" :: l')) (h' : Ev (fun n => expr n true 0 l') (b, k)) :
    Ev (fun n => item n l) (.pair a b, k) :=
  .of (g := fun n => (expr n true 0 l).bind (itemRest n)) (fun n => by show item (n + 1) l = _; rw [item]; rfl)
    (h.bind (h'.map fun y => (Expr.pair a y.1, y.2)))

theorem exprs_one {lit : Bool} {l k : List Tok} {e : Expr} (h : Ev (fun n => expr n lit 0 l) (e, k)) {ys r} (ht : Tail lit k ys r) :
    Ev (fun n => exprs n lit l) (e :: ys, r) :=
  .of (g := fun n => (expr n lit 0 l).bind fun x =>
    if headOp x.2 = g!"," then (exprs n lit x.2.tail).map fun y => (x.1 :: y.1, y.2) else some ([x.1], x.2)) (fun n => by show exprs (n + 1) lit l = _; rw [exprs])
    (h.bind (by
      rcases ht with ⟨h1, _, rfl, rfl⟩ | ⟨k', rfl, hk⟩
      · exact ⟨0, fun n _ => if_neg h1⟩
      · exact hk.map fun y => (e :: y.1, y.2)))

/-- An expression in a list. -/
theorem ReadsE.item {S : Sources} {e : Expr} (he : ReadsE S e) (hm : normalExprs [e] = [e.normal]) (hi : ItemsOk S [e] → e.Ok S true 0)
    (hl : ∀ lit, ExprsOk S lit [e] → e.Ok S lit 0) : ReadsI S e where
  more := fun h _ close hc k r hk hr => by
    rw [hm]
    exact more_item (item_plain (he.expr (hi h) hk.follows) hk) hr
  exprs := fun lit h _ k ys r ht => by
    rw [hm]
    exact exprs_one (he.expr (hl lit h) ht.follows) ht
  items := fun h _ k => starts_expr e true 0 (hi h) k
  starts := fun lit h _ k => starts_expr e lit 0 (hl lit h) k

theorem item_spread_reads {S : Sources} {e : Expr} (he : ReadsE S e) : ReadsI S (.spread e) where
  more := fun h _ close hc k r hk hr => by
    simp only [ItemsOk] at h
    exact more_item (item_spread (he.expr h.1 (follows_op (by decide) true k))) hr
  exprs := fun lit h => by simp only [ExprsOk, Expr.Ok, false_and] at h
  items := fun h _ k => by
    simp only [ItemsOk] at h
    exact starts_expr e true 0 h.1 _
  starts := fun lit h => by simp only [ExprsOk, Expr.Ok, false_and] at h

theorem item_pair_reads {S : Sources} {a b : Expr} (ha : ReadsE S a) (hb : ReadsE S b) : ReadsI S (.pair a b) where
  more := fun h _ close hc k r hk hr => by
    simp only [ItemsOk] at h
    exact more_item (item_pair (ha.expr h.1.1 (follows_op (by decide) true _)) (hb.expr h.1.2 hk.follows)) hr
  exprs := fun lit h => by simp only [ExprsOk, Expr.Ok, false_and] at h
  items := fun h _ k => by
    simp only [ItemsOk] at h
    exact starts_expr a true 0 h.1.1 _
  starts := fun lit h => by simp only [ExprsOk, Expr.Ok, false_and] at h

theorem operand_type {o : List Tok} {l : List Tok} {r} (ho : ∀ n, operand (n + 1) o = typeOperand n l) (h : Ev (fun n => typeOperand n l) r) : Ev (fun n => operand n o) r :=
  .of ho h

/-- Operands that are types. -/
theorem operand_types {t : Ty} (ht : t.Made ∨ (∃ gs, t = .struct gs) ∨ ∃ ms, t = .iface ms) (k : List Tok) (n : Nat) :
    operand (n + 1) (t.put k) = typeOperand n (t.put k) ∧ headOp (t.put k) ∉ unaryOps ∧ Starts (t.put k) := by
  cases t with
  | slice t => exact ⟨by rw [Ty.put, operand]; rfl, by show g!"[" ∉ _; decide, starts_op (.tail _ (.head _)) _⟩
  | map a b => exact ⟨by rw [Ty.put, operand]; rfl, by show ([] : Str) ∉ _; decide, starts_word (by decide) _⟩
  | chan t => exact ⟨by rw [Ty.put, operand]; rfl, by show ([] : Str) ∉ _; decide, starts_word (by decide) _⟩
  | struct t => exact ⟨by rw [Ty.put, operand]; rfl, by show ([] : Str) ∉ _; decide, starts_word (by decide) _⟩
  | iface t => exact ⟨by rw [Ty.put, operand]; rfl, by show ([] : Str) ∉ _; decide, starts_word (by decide) _⟩
  | _ =>
    rcases ht with ht | ⟨_, ht⟩ | ⟨_, ht⟩
    · exact ht.elim
    · cases ht
    · cases ht

theorem item_type_reads {S : Sources} (hs : SourcesRead S) (t : Ty) : ReadsI S (.type t) where
  more := fun h _ close hc k r hk hr => by
    simp only [ItemsOk, and_true] at h
    have hst : Stops k := by
      obtain ⟨o, r, rfl, ho⟩ := hk
      refine ⟨o, r, rfl, ?_⟩
      clear hr
      revert o
      decide
    have hnb : headOp k ≠ g!"{" := by
      obtain ⟨o, r, rfl, ho⟩ := hk
      show o ≠ _
      rintro rfl
      revert ho
      decide
    refine more_item (item_plain ?_ hk) hr
    have ho := operand_types (.inl h.1) k
    refine .of (g := fun n => (unary n true (t.put k)).bind fun x => binary n true 0 x.1 x.2) (fun n => by show Reader.expr (n + 1) true 0 _ = _; rw [Reader.expr]; rfl)
      ((unary_operand (x := (.type t.normal, k)) (ho 0).2.1 (operand_type (fun n => (ho n).1) (.now fun n => ?_)) (suffix_stop hk.follows.1 (.type t.normal))).bind
        (binary_stop (e := .type t.normal) (h := fun p hp => by rw [hk.follows.2] at hp; cases hp)))
    show typeOperand (n + 1) _ = some (.type t.normal, k)
    rw [t.put_append, typeOperand, (ty_toks hs t h.2).span hst]
    exact if_neg hnb
  exprs := fun lit h => by simp only [ExprsOk, Expr.Ok, false_and] at h
  items := fun h _ k => by
    simp only [ItemsOk, and_true] at h
    exact (operand_types (.inl h.1) k 0).2.2
  starts := fun lit h => by simp only [ExprsOk, Expr.Ok, false_and] at h

theorem many_filled {es : List Expr} (h : (Expr.many es).filled = true) : es ≠ [] ∧ es.all Expr.filled = true := by
  unfold Expr.filled at h
  rw [Bool.and_eq_true] at h
  refine ⟨by rintro rfl; exact absurd h.1 (by decide), List.all_eq_true.mpr fun e he => ?_⟩
  have := List.all_eq_true.mp h.2 e he
  cases e with
  | many _ => exact absurd this (by simp [Expr.isMany])
  | _ => rfl

theorem item_many_reads {S : Sources} {es : List Expr} (hes : ReadsL S es) : ReadsI S (.many es) where
  more := fun h hf close hc k r hk hr => by
    simp only [ItemsOk, and_true] at h
    obtain ⟨hne, hf⟩ := many_filled hf
    simp only [Expr.put, normalExprs, List.append_nil]
    rw [← putExprs_append]
    exact hes.more hne h hf close hc k r hk hr
  exprs := fun lit h hf k ys r ht => by
    simp only [ExprsOk, and_true] at h
    obtain ⟨hne, hf⟩ := many_filled hf
    simp only [Expr.put, normalExprs, List.append_nil]
    rw [← putExprs_append]
    exact hes.exprs hne lit h hf k ys r ht
  items := fun h hf k => by
    simp only [ItemsOk, and_true] at h
    obtain ⟨hne, hf⟩ := many_filled hf
    simp only [Expr.put]
    rw [← putExprs_append]
    exact hes.items hne h hf k
  starts := fun lit h hf k => by
    simp only [ExprsOk, and_true] at h
    obtain ⟨hne, hf⟩ := many_filled hf
    simp only [Expr.put]
    rw [← putExprs_append]
    exact hes.starts hne lit h hf k

theorem tidy_cases {l : List Expr} (h : tidy l = true) :
    (flatExprs l = [] ∧ normalExprs l = [] ∧ ∀ k, putExprs l k = k) ∨ (l ≠ [] ∧ l.all Expr.filled = true) := by
  cases l with
  | nil => exact .inl ⟨by simp only [flatExprs], by simp only [normalExprs], fun _ => rfl⟩
  | cons e es =>
    by_cases hm : ∃ es', e = .many es' ∧ es = []
    · obtain ⟨es', rfl, rfl⟩ := hm
      cases es' with
      | nil => exact .inl ⟨by simp only [flatExprs, List.append_nil], by simp only [normalExprs, List.append_nil], fun _ => rfl⟩
      | cons a es' =>
        replace h : (a :: es').all (!·.isMany) = true := h
        exact .inr ⟨by simp, by simp [Expr.filled]; simpa using h⟩
    · refine .inr ⟨by simp, ?_⟩
      unfold tidy at h
      split at h
      · rename_i es' heq
        obtain ⟨rfl, rfl⟩ := List.cons.inj heq
        exact absurd ⟨es', rfl, rfl⟩ hm
      · exact h

/-- Arguments or elements up to the bracket. -/
theorem reads_items {S : Sources} {l : List Expr} (hl : ReadsL S l) {comma : Bool} (h : ItemsOk S l) (ht : tidy l = true) (hc : comma = true → flatExprs l ≠ [])
    {close : Str} (hb : close ∈ brackets) (k : List Tok) :
    Ev (fun n => Reader.items n close (putExprs l (bif comma then .op g!"," :: .op close :: k else .op close :: k))) (normalExprs l, comma, k) := by
  rcases tidy_cases ht with ⟨h1, h2, h3⟩ | ⟨hne, hf⟩
  · cases comma with
    | true => exact absurd h1 (hc rfl)
    | false =>
      rw [h2, h3]
      refine .now fun n => ?_
      show items (n + 1) close (.op close :: k) = _
      rw [items]
      exact if_pos rfl
  · refine .of (fun n => ?_) (by
      have := hl.more hne h hf close hb (bif comma then .op g!"," :: .op close :: k else .op close :: k) ([], comma, k) ?_ ?_
      · rw [List.append_nil] at this
        exact this
      · cases comma with
        | true => exact ⟨_, _, rfl, by decide⟩
        | false => exact ⟨_, _, rfl, .tail _ hb⟩
      · refine .now fun n => ?_
        cases comma with
        | true =>
          show rest (n + 1) close (.op g!"," :: .op close :: k) = _
          rw [rest, if_neg, if_pos (c := headOp (.op g!"," :: .op close :: k) = g!",") rfl]
          · exact if_pos rfl
          · show g!"," ≠ close
            revert close
            decide
        | false =>
          show rest (n + 1) close (.op close :: k) = _
          rw [rest]
          exact if_pos rfl)
    show items (n + 1) close _ = _
    rw [items, if_neg]
    refine (hl.items hne h hf _).op ?_
    revert close
    decide

theorem suffix_call {lit : Bool} {e : Expr} {l k : List Tok} {es : List Expr} {comma : Bool} {r} (hi : Ev (fun n => items n g!")" l) (es, comma, k))
    (h : Ev (fun n => suffix n lit (.call e es comma) k) r) : Ev (fun n => suffix n lit e (.op g!"(" :: l)) r :=
  .of (g := fun n => (items n g!")" l).bind fun y => suffix n lit (.call e y.1 y.2.1) y.2.2) (fun n => by
    show suffix (n + 1) lit e _ = _
    rw [suffix]
    rfl) (hi.bind h)

theorem call_ok {S : Sources} {f : Expr} {args : List Expr} {c : Bool} {lit : Bool} {q : Nat} (h : (Expr.call f args c).Ok S lit q) :
    ((∃ ms, f = .type (.iface ms) ∧ (Ty.iface ms).Ok S) ∨ f.Ok S lit 7) ∧ (tidy args = true ∧ (c = true → flatExprs args ≠ [])) ∧ ArgsOk S True args := by
  cases f with
  | type t =>
    rw [Expr.Ok] at h
    cases t with
    | iface ms => exact ⟨.inl ⟨ms, rfl, h.1.2⟩, h.2⟩
    | _ => exact absurd h.1.1 (by simp [Ty.Converts])
  | _ =>
    rw [Expr.Ok] at h
    · exact ⟨.inr h.1, h.2⟩
    · nofun

theorem call_any {S : Sources} {f : Expr} {args : List Expr} {c : Bool} {lit : Bool} {q q' : Nat} (h : (Expr.call f args c).Ok S lit q) : (Expr.call f args c).Ok S lit q' := by
  cases f with
  | type t => simpa only [Expr.Ok] using h
  | _ =>
    rw [Expr.Ok] at h ⊢
    · exact h
    · nofun
    · nofun

theorem TypeToks.span_iface {S : Sources} (hs : SourcesRead S) {ms : List IfaceMethod} (h : (Ty.iface ms).Ok S) (k : List Tok) :
    Reader.span ((Ty.iface ms).put [] ++ k) = some ((Ty.iface ms).put [], k) := by
  simp only [Ty.Ok] at h
  have hm := methods_skip hs ms h
  unfold Reader.span
  have : Reader.scan .type 0 ((Ty.iface ms).put [] ++ k) = some k := by
    show Reader.scan .type 0 (.word g!"interface" :: .op g!"{" :: (putMethods ms [.op g!"}"] ++ k)) = _
    rw [putMethods_append, Reader.scan]
    show Reader.scan .body 0 (_ :: _) = _
    rw [Reader.scan]
    show Reader.scan .done 1 _ = _
    rw [List.append_assoc, hm]
    show Reader.scan .done 0 k = _
    cases k <;> rfl
  rw [this]
  simp

theorem reads_call {S : Sources} (hs : SourcesRead S) {f : Expr} {args : List Expr} (hf : ReadsE S f) (ha : ReadsL S args) (c : Bool) : ReadsE S (.call f args c) := by
  refine .of_prim rfl (fun _ _ h _ => call_any h) fun lit h k r hr => ?_
  obtain ⟨h1, h2, h3⟩ := call_ok h
  have hi := reads_items ha (comma := c) (args_items args _ h3) h2.1 h2.2 (close := g!")") (by decide) k
  rcases h1 with ⟨ms, rfl, hm⟩ | h1
  · have ho := operand_types (t := .iface ms) (.inr (.inr ⟨ms, rfl⟩)) (.op g!"(" :: putExprs args (bif c then .op g!"," :: .op g!")" :: k else .op g!")" :: k))
    refine unary_operand (x := (.type (Ty.iface ms).normal, _)) (ho 0).2.1 (operand_type (fun n => (ho n).1) (.now fun n => ?_)) (suffix_call hi hr)
    show typeOperand (n + 1) _ = some (.type (Ty.iface ms).normal, _)
    rw [Ty.put_append, typeOperand, TypeToks.span_iface hs hm]
    rfl
  · exact hf.prim lit h1 _ _ (suffix_call hi hr)

theorem reads_lit {S : Sources} (hs : SourcesRead S) (t : Ty) {es : List Expr} (ha : ReadsL S es) (c : Bool) : ReadsE S (.lit t es c) := by
  refine .of_prim rfl (fun _ _ h _ => by simpa only [Expr.Ok] using h) fun lit h k r hr => ?_
  simp only [Expr.Ok] at h
  obtain ⟨rfl, h1, h2, h3, h4⟩ := h
  have hi := reads_items ha (comma := c) (elems_items es h4) h3.1 h3.2 (close := g!"}") (by decide) k
  have key : ∀ e tl, typeName e = some tl → tl = t.put [] → Ev (fun n => suffix n true e (.op g!"{" :: putExprs es (bif c then .op g!"," :: .op g!"}" :: k else .op g!"}" :: k))) r := by
    intro e tl he htl
    refine .of (g := fun n => (items n g!"}" (putExprs es (bif c then .op g!"," :: .op g!"}" :: k else .op g!"}" :: k))).bind
      fun y => suffix n true (.lit (.toks tl) y.1 y.2.1) y.2.2) (fun n => ?_) (hi.bind (by subst htl; exact hr))
    show suffix (n + 1) true e (.op g!"{" :: _) = _
    rw [suffix]
    show (match typeName e with | some t => _ | none => _) = _
    rw [he]
    rfl
  have hop : (t.Made ∨ (∃ gs, t = .struct gs) ∨ ∃ ms, t = .iface ms) → Ev (fun n => unary n true ((Expr.lit t es c).put k)) r := by
    intro ht
    have ho := operand_types ht (.op g!"{" :: putExprs es (bif c then .op g!"," :: .op g!"}" :: k else .op g!"}" :: k))
    refine unary_operand (x := ((Expr.lit t es c).normal, k)) (ho 0).2.1 (operand_type (fun n => (ho n).1) ?_) hr
    refine .of (g := fun n => (items n g!"}" (putExprs es (bif c then .op g!"," :: .op g!"}" :: k else .op g!"}" :: k))).map
      fun y => (.lit t.normal y.1 y.2.1, y.2.2)) (fun n => ?_) (hi.map _)
    show typeOperand (n + 1) _ = _
    rw [Ty.put_append, typeOperand, (ty_toks hs t h2).span (stops_brace _)]
    rfl
  cases t with
  | name x =>
    simp only [Ty.Ok] at h2
    exact unary_operand (by show ([] : Str) ∉ _; decide) (operand_name h2 _) (key (.id x) _ rfl rfl)
  | qual p x =>
    simp only [Ty.Ok] at h2
    exact unary_operand (by show ([] : Str) ∉ _; decide) (operand_name h2.1 _) (suffix_sel (key (.sel (.id p) x) _ rfl rfl))
  | slice t => exact hop (.inl trivial)
  | map a b => exact hop (.inl trivial)
  | struct gs => exact hop (.inr (.inl ⟨gs, rfl⟩))
  | _ => exact h1.elim

end Gowrap.Go.Reader
