import Verif.Spec.Reading
import Verif.Proofs.ReaderTypes
/-!
# Steps of the reader
-/

namespace Gowrap.Go.Reader

open Gowrap Go Spec

/-- The result, if the depth is large enough. -/
def Ev {α : Type} (f : Nat → Option α) (a : α) : Prop := ∃ N, ∀ n, N ≤ n → f n = some a

variable {α β : Type}

theorem Ev.const (a : α) : Ev (fun _ => some a) a := ⟨0, fun _ _ => rfl⟩

theorem Ev.of {f g : Nat → Option α} {a : α} (h : ∀ n, f (n + 1) = g n) (hg : Ev g a) : Ev f a := by
  obtain ⟨N, hN⟩ := hg
  refine ⟨N + 1, fun n hn => ?_⟩
  obtain ⟨m, rfl⟩ : ∃ m, n = m + 1 := ⟨n - 1, by omega⟩
  rw [h, hN m (by omega)]

theorem Ev.now {f : Nat → Option α} {a : α} (h : ∀ n, f (n + 1) = some a) : Ev f a := .of h (.const a)

theorem Ev.bind {f : Nat → Option α} {g : Nat → α → Option β} {a : α} {b : β} (h : Ev f a) (hg : Ev (fun n => g n a) b) :
    Ev (fun n => (f n).bind (g n)) b := by
  obtain ⟨N, hN⟩ := h
  obtain ⟨M, hM⟩ := hg
  refine ⟨N + M, fun n hn => ?_⟩
  show (f n).bind (g n) = some b
  rw [hN n (by omega)]
  exact hM n (by omega)

theorem Ev.map {f : Nat → Option α} {a : α} (h : Ev f a) (g : α → β) : Ev (fun n => (f n).map g) (g a) := by
  obtain ⟨N, hN⟩ := h
  refine ⟨N, fun n hn => ?_⟩
  show (f n).map g = _
  rw [hN n hn]
  rfl

theorem Ev.unique {f : Nat → Option α} {a b : α} (h : Ev f a) (h' : Ev f b) : a = b := by
  obtain ⟨N, hN⟩ := h
  obtain ⟨M, hM⟩ := h'
  have h1 := hN (N + M) (by omega)
  have h2 := hM (N + M) (by omega)
  exact Option.some.inj (h1.symm.trans h2)

/-! ## Parameters -/

theorem stops_comma (k : List Tok) : Stops (.op g!"," :: k) := ⟨_, _, rfl, by decide⟩
theorem stops_paren (k : List Tok) : Stops (.op g!")" :: k) := ⟨_, _, rfl, by decide⟩
theorem stops_semi (k : List Tok) : Stops (.op g!";" :: k) := ⟨_, _, rfl, by decide⟩
theorem stops_brace (k : List Tok) : Stops (.op g!"{" :: k) := ⟨_, _, rfl, by decide⟩
theorem stops_end (k : List Tok) : Stops (.op g!"}" :: k) := ⟨_, _, rfl, by decide⟩
theorem stops_dots (k : List Tok) : Stops (.op g!"..." :: k) := ⟨_, _, rfl, by decide⟩
theorem stops_square (k : List Tok) : Stops (.op g!"]" :: k) := ⟨_, _, rfl, by decide⟩
theorem stops_colon (k : List Tok) : Stops (.op g!":" :: k) := ⟨_, _, rfl, by decide⟩

/-- The tokens of the type of a parameter. -/
def ParamToks (l : List Tok) : Prop := TypeToks l ∨ ∃ r, l = .op g!"..." :: r ∧ TypeToks r

theorem TypeToks.not_dots {l : List Tok} (h : TypeToks l) (k : List Tok) : headOp (l ++ k) ≠ g!"..." := by
  obtain ⟨t, r, rfl, ht, _⟩ := h.begins
  intro e
  cases t with
  | op o =>
    replace e : o = g!"..." := e
    subst e
    exact ht (by decide)
  | _ => exact absurd e (by show ([] : Str) ≠ _; decide)

theorem ParamToks.read {l : List Tok} (h : ParamToks l) {k : List Tok} (hk : Stops k) : paramType (l ++ k) = some (l, k) := by
  rcases h with h | ⟨r, rfl, h⟩
  · unfold paramType
    rw [if_neg (h.not_dots k), h.span hk]
  · unfold paramType
    refine (if_pos rfl).trans ?_
    show (Reader.span (r ++ k)).map _ = _
    rw [h.span hk]
    rfl

theorem group_toks {S : Sources} (hs : SourcesRead S) {last : Prop} {xs : List Str} {t : Ty} (h : (Group.mk xs t).Ok S last) :
    (∀ x ∈ xs, GoName x) ∧ ParamToks (t.put []) := by
  cases t with
  | dots t => simp only [Group.Ok] at h; exact ⟨h.1, .inr ⟨_, rfl, ty_toks hs t h.2.2.2⟩⟩
  | toks l =>
    simp only [Group.Ok] at h
    refine ⟨h.1, ?_⟩
    simp only [Ty.put, List.append_nil]
    rcases h.2 with h | h
    · exact .inl (hs.type l h)
    · exact .inr (hs.variadic l h.2.2)
  | _ => simp only [Group.Ok] at h; exact ⟨h.1, .inl (ty_toks hs _ h.2)⟩

/-- Every parameter is a group with a type. -/
def GroupsToks (gs : List Group) : Prop := ∀ xs t, Group.mk xs t ∈ gs → (∀ x ∈ xs, GoName x) ∧ ParamToks (t.put [])

theorem groups_toks {S : Sources} (hs : SourcesRead S) : ∀ {gs : List Group}, GroupsOk S gs → GroupsToks gs
  | [], _ => fun _ _ h => nomatch h
  | g :: gs, h => by
    simp only [GroupsOk] at h
    intro xs t hm
    rcases List.mem_cons.mp hm with rfl | hm
    · exact group_toks hs h.1
    · exact groups_toks hs h.2 xs t hm

theorem struct_toks {S : Sources} (hs : SourcesRead S) : ∀ {gs : List Group}, StructOk S gs → GroupsToks gs
  | [], _ => fun _ _ h => nomatch h
  | g :: gs, h => by
    simp only [StructOk] at h
    intro xs t hm
    rcases List.mem_cons.mp hm with rfl | hm
    · exact group_toks hs h.1
    · exact struct_toks hs h.2 xs t hm

theorem GroupsToks.tail {g : Group} {gs : List Group} (h : GroupsToks (g :: gs)) : GroupsToks gs := fun xs t hm => h xs t (.tail _ hm)

/-- Unnamed parameters. -/
theorem ev_types (k : List Tok) : ∀ gs : List Group, gs ≠ [] → GroupsToks gs → (∀ g ∈ gs, match g with | .mk xs _ => xs = []) →
    Ev (fun n => types n (putGroups gs (.op g!")" :: k))) (gs.map Group.normal, k)
  | [], h, _, _ => absurd rfl h
  | [.mk xs t], _, h, hn => by
    obtain rfl : xs = [] := hn (.mk xs t) (by simp)
    refine .now fun n => ?_
    show types (n + 1) (t.put (_ :: k)) = _
    rw [t.put_append, types, (h [] t (by simp)).2.read (stops_paren k)]
    rfl
  | .mk xs t :: g :: gs, _, h, hn => by
    obtain rfl : xs = [] := hn (.mk xs t) (by simp)
    refine .of (g := fun n => (types n (putGroups (g :: gs) (.op g!")" :: k))).map fun y => (.mk [] (.toks (t.put [])) :: y.1, y.2)) (fun n => ?_)
      ((ev_types k (g :: gs) (by simp) h.tail fun g' hg => hn g' (.tail _ hg)).map _)
    show types (n + 1) (t.put (_ :: putGroups (g :: gs) _)) = _
    rw [t.put_append, types, (h [] t (by simp)).2.read (stops_comma _)]
    rfl

theorem ParamToks.after_name {l : List Tok} (h : ParamToks l) {x : Str} (hx : GoName x) (k : List Tok) :
    ∀ p, paramType (.word x :: (l ++ k)) = some p → headOp p.2 ≠ g!")" ∧ headOp p.2 ≠ g!"," ∧ headOp p.2 ≠ g!";" := by
  intro p hp
  unfold paramType at hp
  rw [if_neg (by show ([] : Str) ≠ _; decide)] at hp
  rcases h with h | ⟨r, rfl, h⟩
  · obtain ⟨t, r, ht, hsc⟩ := h.after_name hx k
    unfold Reader.span at hp
    rw [hsc] at hp
    obtain rfl := Option.some.inj hp
    have := enter_not ht r
    exact ⟨this _ (by decide), this _ (by decide), this _ (by decide)⟩
  · have := (TypeToks.of_name hx).span (stops_dots (r ++ k))
    rw [show Tok.word x :: (.op g!"..." :: r ++ k) = [.word x] ++ (.op g!"..." :: (r ++ k)) from rfl, this] at hp
    obtain rfl := Option.some.inj hp
    exact ⟨by show g!"..." ≠ _; decide, by show g!"..." ≠ _; decide, by show g!"..." ≠ _; decide⟩

/-- Named parameters are not unnamed ones. -/
theorem types_named {l : List Tok} (h : ParamToks l) (k : List Tok) : ∀ (n : Nat) (xs : List Str), xs ≠ [] → (∀ x ∈ xs, GoName x) →
    types n (putNames xs (l ++ k)) = none := by
  intro n
  induction n with
  | zero => intros; rfl
  | succ n ih =>
    intro xs hne hx
    cases xs with
    | nil => exact absurd rfl hne
    | cons x xs =>
      cases xs with
      | nil =>
        show types (n + 1) (.word x :: (l ++ k)) = _
        rw [types]
        cases hp : paramType (.word x :: (l ++ k)) with
        | none => rfl
        | some p =>
          have := h.after_name (hx x (by simp)) k p hp
          show (if _ then _ else _) = _
          rw [if_neg this.1, if_neg this.2.1]
      | cons y ys =>
        show types (n + 1) ([.word x] ++ .op g!"," :: putNames (y :: ys) (l ++ k)) = _
        rw [types, ParamToks.read (.inl (.of_name (hx x (by simp)))) (stops_comma _)]
        show (types n (putNames (y :: ys) (l ++ k))).map _ = _
        rw [ih (y :: ys) (by simp) fun z hz => hx z (.tail _ hz)]
        rfl

theorem ev_names {l : List Tok} {gs : List Group} {k : List Tok} (h : ParamToks l)
    (hk : ∀ x, Ev (fun n => named n (.word x :: (l ++ k))) (.mk [x] (.toks l) :: gs, r)) : ∀ xs : List Str, xs ≠ [] →
    Ev (fun n => named n (putNames xs (l ++ k))) (.mk xs (.toks l) :: gs, r)
  | [], h => absurd rfl h
  | [x], _ => hk x
  | x :: y :: ys, _ => .of (g := fun n => (named n (putNames (y :: ys) (l ++ k))).map fun p => (addName x p.1, p.2)) (fun n => by
      show named (n + 1) (.word x :: .op g!"," :: _) = _
      rw [named]
      exact if_pos rfl) ((ev_names h hk (y :: ys) (by simp)).map _)

theorem ParamToks.no_comma {l : List Tok} (h : ParamToks l) (k : List Tok) : headOp (l ++ k) ≠ g!"," ∧ headOp (l ++ k) ≠ g!")" := by
  rcases h with h | ⟨r, rfl, _⟩
  · obtain ⟨t, r, rfl, ht, _⟩ := h.begins
    have := enter_not ht (r ++ k)
    exact ⟨this _ (by decide), this _ (by decide)⟩
  · exact ⟨by show g!"..." ≠ _; decide, by show g!"..." ≠ _; decide⟩

theorem named_last {l : List Tok} (h : ParamToks l) (x : Str) (k : List Tok) :
    Ev (fun n => named n (.word x :: (l ++ .op g!")" :: k))) ([.mk [x] (.toks l)], k) := .now fun n => by
  show named (n + 1) (.word x :: _) = _
  rw [named]
  rw [if_neg (h.no_comma _).1, h.read (stops_paren k)]
  rfl

theorem named_more {l : List Tok} (h : ParamToks l) (x : Str) {k : List Tok} {y} (hk : Ev (fun n => named n k) y) :
    Ev (fun n => named n (.word x :: (l ++ .op g!"," :: k))) (.mk [x] (.toks l) :: y.1, y.2) :=
  .of (g := fun n => (named n k).map fun y => (.mk [x] (.toks l) :: y.1, y.2)) (fun n => by
    show named (n + 1) (.word x :: _) = _
    rw [named]
    rw [if_neg (h.no_comma _).1, h.read (stops_comma k)]
    rfl) (hk.map _)

/-- Named parameters. -/
theorem ev_named (k : List Tok) : ∀ gs : List Group, gs ≠ [] → GroupsToks gs → (∀ g ∈ gs, match g with | .mk xs _ => xs ≠ []) →
    Ev (fun n => named n (putGroups gs (.op g!")" :: k))) (gs.map Group.normal, k)
  | [], h, _, _ => absurd rfl h
  | [.mk xs t], _, h, hn => by
    have ht := (h xs t (by simp)).2
    show Ev (fun n => named n (putNames xs (t.put (_ :: k)))) _
    rw [t.put_append]
    exact ev_names ht (fun x => named_last ht x k) xs (hn (.mk xs t) (by simp))
  | .mk xs t :: g :: gs, _, h, hn => by
    have ht := (h xs t (by simp)).2
    show Ev (fun n => named n (putNames xs (t.put (_ :: putGroups (g :: gs) _)))) _
    rw [t.put_append]
    exact ev_names ht (fun x => named_more ht x (ev_named k (g :: gs) (by simp) h.tail fun g' hg => hn g' (.tail _ hg))) xs (hn (.mk xs t) (by simp))

theorem headOp_names {xs : List Str} (h : xs ≠ []) (l : List Tok) : headOp (putNames xs l) = [] := by
  cases xs with
  | nil => exact absurd rfl h
  | cons x xs => cases xs <;> rfl

/-- **Parameters.** -/
theorem ev_params (k : List Tok) {gs : List Group} (h : GroupsToks gs) (hn : NamedAlike gs) :
    Ev (fun n => params n (putGroups gs (.op g!")" :: k))) (gs.map Group.normal, k) := by
  cases gs with
  | nil => exact ⟨0, fun n _ => rfl⟩
  | cons g gs =>
    obtain ⟨xs, t⟩ := g
    have ht := h xs t (by simp)
    obtain ⟨k', hk'⟩ : ∃ k', putGroups (.mk xs t :: gs) (.op g!")" :: k) = putNames xs (t.put [] ++ k') := by
      cases gs with
      | nil => exact ⟨_, by show putNames xs (t.put _) = _; rw [t.put_append]⟩
      | cons g gs => exact ⟨_, by show putNames xs (t.put _) = _; rw [t.put_append]⟩
    rcases hn with hn | hn
    · obtain ⟨N, hN⟩ := ev_named k (.mk xs t :: gs) (by simp) h hn
      have hx : xs ≠ [] := hn (.mk xs t) (by simp)
      refine ⟨N, fun n hn => ?_⟩
      have hN := hN n hn
      show params n _ = _
      unfold params
      rw [hk'] at hN ⊢
      rw [if_neg (by rw [headOp_names hx]; decide), types_named ht.2 k' n xs hx ht.1]
      exact hN
    · obtain ⟨N, hN⟩ := ev_types k (.mk xs t :: gs) (by simp) h hn
      obtain rfl : xs = [] := hn (.mk xs t) (by simp)
      refine ⟨N, fun n hn => ?_⟩
      have hN : types n _ = _ := hN n hn
      show params n _ = _
      unfold params
      rw [if_neg (by rw [hk']; exact (ht.2.no_comma k').2), hN]

theorem ev_results {S : Sources} (hs : SourcesRead S) (k : List Tok) {r : Results} (h : r.Ok S) :
    Ev (fun n => results n (r.put (.op g!"{" :: k))) (r.normal, .op g!"{" :: k) := by
  cases r with
  | none => exact ⟨0, fun n _ => rfl⟩
  | one t =>
    simp only [Results.Ok] at h
    have ht := ty_toks hs t h.2
    refine ⟨0, fun n _ => ?_⟩
    show results n (t.put _) = _
    rw [t.put_append]
    unfold results
    obtain ⟨a, l, hl, he, _⟩ := ht.begins
    rw [if_neg, if_neg, ht.span (stops_brace k)]
    · rfl
    · rw [hl]
      intro e
      cases a with
      | op o =>
        replace e : o = g!"(" := e
        subst e
        exact h.1 l hl
      | _ => exact absurd e (by show ([] : Str) ≠ _; decide)
    · rw [hl]
      intro e
      cases a with
      | op o =>
        replace e : o = g!"{" := e
        subst e
        exact he (by decide)
      | _ => exact absurd e (by show ([] : Str) ≠ _; decide)
  | list gs =>
    simp only [Results.Ok] at h
    obtain ⟨N, hN⟩ := (ev_params (.op g!"{" :: k) (struct_toks hs h.2) h.1).map fun y => (Results.list y.1, y.2)
    refine ⟨N, fun n hn => ?_⟩
    have := hN n hn
    show results n (.op g!"(" :: _) = _
    unfold results
    rw [if_neg (by show g!"(" ≠ _; decide)]
    exact (if_pos rfl).trans this

end Gowrap.Go.Reader
