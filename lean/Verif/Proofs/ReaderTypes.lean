import Verif.Spec.Reader
import Verif.Spec.Accepted
import Verif.Proofs.GoPut
/-!
# Where types end
-/

namespace Gowrap.Go.Reader

open Gowrap Go Spec

theorem enter_name {x : Str} (h : GoName x) : enter (.word x) = some (.name, 0) := by
  have hk := h.2.2
  have ne : ∀ k ∈ keywords, x ≠ k := fun k hm e => hk (e ▸ hm)
  unfold enter
  simp only
  rw [if_neg (ne _ (by decide)), if_neg (ne _ (by decide)), if_neg (ne _ (by decide)), if_neg (ne _ (by decide)), if_neg (ne _ (by decide)), if_neg hk]

/-- Skipped inside brackets. -/
def Skips (l : List Tok) : Prop := ∀ a d k, scan a (d + 1) (l ++ k) = scan a (d + 1) k

theorem Skips.nil : Skips [] := fun _ _ _ => rfl

theorem Skips.append {l r : List Tok} (h : Skips l) (h' : Skips r) : Skips (l ++ r) := fun a d k => by rw [List.append_assoc, h, h']

theorem Skips.word (x : Str) {l : List Tok} (h : Skips l) : Skips (.word x :: l) := fun a d k => by
  show scan a (d + 1) (_ :: (l ++ k)) = _
  rw [scan, h]
  nofun

theorem Skips.op {o : Str} (h1 : isOpen o = false) (h2 : isClose o = false) {l : List Tok} (h : Skips l) : Skips (.op o :: l) := fun a d k => by
  show scan a (d + 1) (_ :: (l ++ k)) = _
  rw [scan]
  simp only [h1, h2]
  exact h a d k

theorem Skips.bracket {o c : Str} (h1 : isOpen o = true) (h2 : isOpen c = false) (h3 : isClose c = true) {l r : List Tok} (h : Skips l) (hr : Skips r) :
    Skips (.op o :: (l ++ .op c :: r)) := fun a d k => by
  show scan a (d + 1) (_ :: (l ++ _ :: r ++ k)) = _
  rw [scan]
  simp only [h1, if_true]
  rw [List.append_assoc, h, List.cons_append, scan]
  simp only [h2, h3]
  exact hr a d k

theorem Skips.comma : ∀ {ls : List (List Tok)}, (∀ l ∈ ls, Skips l) → Skips (commaToks ls)
  | [], _ => .nil
  | [l], h => h l (by simp)
  | l :: m :: ls, h => (h l (by simp)).append (.op rfl rfl (Skips.comma fun x hx => h x (by simp [hx])))

theorem Skips.field {f : List Str × List Tok} (h : Skips f.2) : Skips (fieldToks f) := by
  refine Skips.append (Skips.comma ?_) h
  intro l hl
  obtain ⟨x, _, rfl⟩ := List.mem_map.mp hl
  exact .word x .nil

/-- A type: it is skipped in brackets, it is read up to its end, and it cannot be read together with a name before it. -/
structure TypeToks (l : List Tok) : Prop where
  skips : Skips l
  ends : ∃ b : At, b.over = true ∧ ∀ k, scan .type 0 (l ++ k) = scan b 0 k
  begins : ∃ t r, l = t :: r ∧ enter t ≠ none ∧
    (t = .op g!"[" → ∃ c t' r', r = c ++ .op g!"]" :: t' :: r' ∧ Skips c ∧ enter t' ≠ none)

/-- What can follow a type. -/
def Stops (l : List Tok) : Prop := ∃ o r, l = .op o :: r ∧ o ∉ [g!".", g!"[", g!"(", g!"*", g!"<-"]

theorem enter_stop {o : Str} (h : o ∉ [g!".", g!"[", g!"(", g!"*", g!"<-"]) : enter (.op o) = none := by
  simp only [List.mem_cons, List.not_mem_nil, or_false, not_or] at h
  unfold enter
  simp only
  rw [if_neg h.2.2.2.1, if_neg h.2.2.2.2, if_neg h.2.1, if_neg h.2.2.1]

theorem scan_stop {b : At} (hb : b.over = true) {k : List Tok} (hk : Stops k) : scan b 0 k = some k := by
  obtain ⟨o, r, rfl, ho⟩ := hk
  have he := enter_stop ho
  simp only [List.mem_cons, List.not_mem_nil, or_false, not_or] at ho
  cases b with
  | name =>
    rw [scan]
    simp only [At.next, Tok.op.injEq]
    rw [if_neg ho.1, if_neg ho.2.1]
  | params => rw [scan]; simp only [At.next, he]
  | done => rfl
  | _ => exact absurd hb (by decide)

theorem TypeToks.scan {l : List Tok} (h : TypeToks l) {k : List Tok} (hk : Stops k) : scan .type 0 (l ++ k) = some k := by
  obtain ⟨b, hb, he⟩ := h.ends
  rw [he, scan_stop hb hk]

theorem TypeToks.span {l : List Tok} (h : TypeToks l) {k : List Tok} (hk : Stops k) : span (l ++ k) = some (l, k) := by
  unfold Reader.span
  rw [h.scan hk]
  simp

/-- After a name, the type is not read to its end. -/
theorem TypeToks.after_name {l : List Tok} (h : TypeToks l) {x : Str} (hx : GoName x) (k : List Tok) :
    ∃ t r, enter t ≠ none ∧ Reader.scan .type 0 (.word x :: (l ++ k)) = some (t :: r) := by
  have hs : Reader.scan .type 0 (.word x :: (l ++ k)) = Reader.scan .name 0 (l ++ k) := by
    rw [Reader.scan]
    simp only [At.next, enter_name hx]
  rw [hs]
  obtain ⟨t, r, rfl, ht, hb⟩ := h.begins
  by_cases he : t = .op g!"["
  · obtain ⟨c, t', r', rfl, hc, ht'⟩ := hb he
    subst he
    refine ⟨t', r' ++ k, ht', ?_⟩
    rw [List.cons_append, List.append_assoc, Reader.scan]
    show Reader.scan .done 1 _ = _
    rw [hc, List.cons_append, Reader.scan]
    rfl
  · refine ⟨t, r ++ k, ht, ?_⟩
    have hd : t ≠ .op g!"." := by rintro rfl; exact ht rfl
    rw [List.cons_append, Reader.scan]
    simp only [At.next]
    rw [if_neg hd, if_neg he]

theorem enter_not {t : Tok} (h : enter t ≠ none) (r : List Tok) : ∀ o ∈ [g!")", g!",", g!";"], headOp (t :: r) ≠ o := by
  intro o ho e
  cases t with
  | op p =>
    replace e : p = o := e
    subst e
    revert h
    simp only [List.mem_cons, List.not_mem_nil, or_false] at ho
    rcases ho with rfl | rfl | rfl <;> decide
  | _ =>
    replace e : [] = o := e
    subst e
    exact absurd ho (by decide)

/-! ## The forms of types -/

theorem TypeToks.of_name {x : Str} (h : GoName x) : TypeToks [.word x] where
  skips := .word _ .nil
  ends := ⟨.name, rfl, fun k => by show Reader.scan _ _ (_ :: k) = _; rw [Reader.scan]; simp only [At.next, enter_name h]⟩
  begins := ⟨_, _, rfl, by rw [enter_name h]; nofun, nofun⟩

theorem TypeToks.of_qual {p x : Str} (h : GoName p) : TypeToks [.word p, .op g!".", .word x] where
  skips := .word _ (.op rfl rfl (.word _ .nil))
  ends := ⟨.name, rfl, fun k => by show Reader.scan _ _ (_ :: _) = _; rw [Reader.scan]; simp only [At.next, enter_name h]; rfl⟩
  begins := ⟨_, _, rfl, by rw [enter_name h]; nofun, nofun⟩

theorem TypeToks.of_toks {l : List Tok} (h : IsTypeNameToks l) : TypeToks l ∧ ∀ k, Reader.scan .type 0 (l ++ k) = Reader.scan .name 0 k := by
  cases h with
  | name h => exact ⟨.of_name h, fun k => by show Reader.scan _ _ (_ :: k) = _; rw [Reader.scan]; simp only [At.next, enter_name h]⟩
  | qualified h => exact ⟨.of_qual h, fun k => by show Reader.scan _ _ (_ :: _) = _; rw [Reader.scan]; simp only [At.next, enter_name h]; rfl⟩

theorem TypeToks.inst {l a : List Tok} (h : IsTypeNameToks l) (ha : Skips a) : TypeToks (l ++ .op g!"[" :: (a ++ [.op g!"]"])) where
  skips := (TypeToks.of_toks h).1.skips.append (.bracket rfl rfl rfl ha .nil)
  ends := ⟨.done, rfl, fun k => by
    rw [List.append_assoc, (TypeToks.of_toks h).2, List.cons_append, Reader.scan]
    show Reader.scan .done 1 _ = _
    rw [List.append_assoc, ha]
    rfl⟩
  begins := by
    cases h with
    | name h => exact ⟨_, _, rfl, by rw [enter_name h]; nofun, nofun⟩
    | qualified h => exact ⟨_, _, rfl, by rw [enter_name h]; nofun, nofun⟩

/-- A type after tokens after which a type is expected. -/
theorem TypeToks.before {l p : List Tok} (h : TypeToks l) (hs : Skips p) (hp : ∀ k, Reader.scan .type 0 (p ++ k) = Reader.scan .type 0 k)
    (hb : ∃ t r, p = t :: r ∧ enter t ≠ none ∧ (t = .op g!"[" → ∃ c, r = c ++ [.op g!"]"] ∧ Skips c)) : TypeToks (p ++ l) where
  skips := hs.append h.skips
  ends := by
    obtain ⟨b, hb, he⟩ := h.ends
    exact ⟨b, hb, fun k => by rw [List.append_assoc, hp, he]⟩
  begins := by
    obtain ⟨t, r, rfl, ht, hc⟩ := hb
    obtain ⟨t', r', rfl, ht', _⟩ := h.begins
    refine ⟨t, r ++ t' :: r', rfl, ht, fun e => ?_⟩
    obtain ⟨c, rfl, hcs⟩ := hc e
    exact ⟨c, t', r', by simp, hcs, ht'⟩

theorem TypeToks.ptr {l : List Tok} (h : TypeToks l) : TypeToks (.op g!"*" :: l) :=
  h.before (p := [.op g!"*"]) (.op rfl rfl .nil) (fun _ => rfl) ⟨_, _, rfl, by decide, nofun⟩

theorem TypeToks.array {n l : List Tok} (hn : Skips n) (h : TypeToks l) : TypeToks (.op g!"[" :: (n ++ .op g!"]" :: l)) := by
  have := h.before (p := .op g!"[" :: (n ++ [.op g!"]"])) (.bracket rfl rfl rfl hn .nil) (fun k => by
    rw [List.cons_append, Reader.scan]
    show Reader.scan .type 1 _ = _
    rw [List.append_assoc, hn]
    rfl) ⟨_, _, rfl, by decide, fun _ => ⟨n, rfl, hn⟩⟩
  simpa using this

theorem TypeToks.slice {l : List Tok} (h : TypeToks l) : TypeToks (.op g!"[" :: .op g!"]" :: l) := TypeToks.array (n := []) .nil h

theorem TypeToks.map {n l : List Tok} (hn : Skips n) (h : TypeToks l) : TypeToks (.word g!"map" :: .op g!"[" :: (n ++ .op g!"]" :: l)) := by
  have := h.before (p := .word g!"map" :: .op g!"[" :: (n ++ [.op g!"]"])) (.word _ (.bracket rfl rfl rfl hn .nil)) (fun k => by
    rw [List.cons_append, Reader.scan]
    show Reader.scan .map 0 (_ :: _) = _
    rw [Reader.scan]
    show Reader.scan .type 1 (n ++ [_] ++ k) = _
    rw [List.append_assoc, hn]
    rfl) ⟨_, _, rfl, by decide, nofun⟩
  simpa using this

theorem scan_chan (l : List Tok) (h : TypeToks l) (k : List Tok) : Reader.scan .chan 0 (l ++ k) = Reader.scan .type 0 (l ++ k) := by
  obtain ⟨t, r, rfl, ht, _⟩ := h.begins
  rw [List.cons_append, Reader.scan, Reader.scan]
  simp only [At.next]
  by_cases he : t = .op g!"<-"
  · subst he
    rfl
  · rw [if_neg he]

theorem TypeToks.chan {l : List Tok} (h : TypeToks l) : TypeToks (.word g!"chan" :: l) where
  skips := .word _ h.skips
  ends := by
    obtain ⟨b, hb, he⟩ := h.ends
    refine ⟨b, hb, fun k => ?_⟩
    rw [List.cons_append, Reader.scan]
    show Reader.scan .chan 0 _ = _
    rw [scan_chan l h, he]
  begins := ⟨_, _, rfl, by decide, nofun⟩

theorem TypeToks.chanSend {l : List Tok} (h : TypeToks l) : TypeToks (.word g!"chan" :: .op g!"<-" :: l) :=
  h.before (p := [.word g!"chan", .op g!"<-"]) (.word _ (.op rfl rfl .nil)) (fun _ => rfl) ⟨_, _, rfl, by decide, nofun⟩

theorem TypeToks.chanRecv {l : List Tok} (h : TypeToks l) : TypeToks (.op g!"<-" :: .word g!"chan" :: l) :=
  (TypeToks.chan h).before (p := [.op g!"<-"]) (.op rfl rfl .nil) (fun _ => rfl) ⟨_, _, rfl, by decide, nofun⟩

theorem scan_func {p : List Tok} (hp : Skips p) (k : List Tok) :
    Reader.scan .type 0 (.word g!"func" :: .op g!"(" :: (p ++ .op g!")" :: k)) = Reader.scan .params 0 k := by
  rw [Reader.scan]
  show Reader.scan .func 0 (_ :: _) = _
  rw [Reader.scan]
  show Reader.scan .params 1 _ = _
  rw [hp]
  rfl

theorem TypeToks.func0 {p : List Tok} (hp : Skips p) : TypeToks (.word g!"func" :: .op g!"(" :: (p ++ [.op g!")"])) where
  skips := .word _ (.bracket rfl rfl rfl hp .nil)
  ends := ⟨.params, rfl, fun k => by
    have := scan_func hp k
    simpa using this⟩
  begins := ⟨_, _, rfl, by decide, nofun⟩

theorem TypeToks.func1 {p l : List Tok} (hp : Skips p) (h : TypeToks l) : TypeToks (.word g!"func" :: .op g!"(" :: (p ++ .op g!")" :: l)) where
  skips := .word _ (.bracket rfl rfl rfl hp h.skips)
  ends := by
    obtain ⟨b, hb, he⟩ := h.ends
    obtain ⟨t, r, rfl, ht, _⟩ := h.begins
    refine ⟨b, hb, fun k => ?_⟩
    have := scan_func hp (t :: r ++ k)
    simp only [List.cons_append, List.append_assoc] at this he ⊢
    rw [this, ← he, Reader.scan, Reader.scan]
    simp only [At.next]
    cases h : enter t with
    | none => exact absurd h ht
    | some x => rfl
  begins := ⟨_, _, rfl, by decide, nofun⟩

theorem TypeToks.paren {p : List Tok} (hp : Skips p) : TypeToks (.op g!"(" :: (p ++ [.op g!")"])) where
  skips := .bracket rfl rfl rfl hp .nil
  ends := ⟨.done, rfl, fun k => by
    rw [List.cons_append, Reader.scan]
    show Reader.scan .done 1 _ = _
    rw [List.append_assoc, hp]
    rfl⟩
  begins := ⟨_, _, rfl, by decide, nofun⟩

theorem TypeToks.func2 {p q : List Tok} (hp : Skips p) (hq : Skips q) :
    TypeToks (.word g!"func" :: .op g!"(" :: (p ++ .op g!")" :: .op g!"(" :: (q ++ [.op g!")"]))) := .func1 hp (.paren hq)

theorem TypeToks.struct {p : List Tok} (hp : Skips p) : TypeToks (.word g!"struct" :: .op g!"{" :: (p ++ [.op g!"}"])) where
  skips := .word _ (.bracket rfl rfl rfl hp .nil)
  ends := ⟨.done, rfl, fun k => by
    rw [List.cons_append, Reader.scan]
    show Reader.scan .body 0 (_ :: _) = _
    rw [Reader.scan]
    show Reader.scan .done 1 (p ++ [_] ++ k) = _
    rw [List.append_assoc, hp]
    rfl⟩
  begins := ⟨_, _, rfl, by decide, nofun⟩

theorem TypeToks.iface {p : List Tok} (hp : Skips p) : TypeToks (.word g!"interface" :: .op g!"{" :: (p ++ [.op g!"}"])) where
  skips := .word _ (.bracket rfl rfl rfl hp .nil)
  ends := ⟨.done, rfl, fun k => by
    rw [List.cons_append, Reader.scan]
    show Reader.scan .body 0 (_ :: _) = _
    rw [Reader.scan]
    show Reader.scan .done 1 (p ++ [_] ++ k) = _
    rw [List.append_assoc, hp]
    rfl⟩
  begins := ⟨_, _, rfl, by decide, nofun⟩

/-- The types of the interface, if what is copied consists of types. -/
theorem IsType.toks {K : Copied} (ht : ∀ l, K.type l → TypeToks l) (hn : ∀ l, K.len l → Skips l) {l : List Tok} (h : IsType K l) : TypeToks l := by
  induction h with
  | name h => exact (TypeToks.of_toks h).1
  | inst h _ _ ih => exact .inst h (.comma fun a ha => (ih a ha).skips)
  | pointer _ ih => exact ih.ptr
  | slice _ ih => exact ih.slice
  | array h _ ih => exact .array (hn _ h) ih
  | map _ _ ih ih' => exact .map ih.skips ih'
  | chan _ ih => exact ih.chan
  | chanSend _ ih => exact ih.chanSend
  | chanRecv _ ih => exact ih.chanRecv
  | @func ps rs _ _ _ _ ih =>
    refine .func2 (.comma fun a ha => ?_) (.comma fun a ha => ?_)
    all_goals
      obtain ⟨f, hf, rfl⟩ := List.mem_map.mp ha
      exact .field (ih f (by simp [hf])).skips
  | @variadic ps xs l rs _ _ _ _ _ ih =>
    refine .func2 (.comma fun a ha => ?_) (.comma fun a ha => ?_)
    · obtain ⟨f, hf, rfl⟩ := List.mem_map.mp ha
      rcases List.mem_append.mp hf with hf | hf
      · exact .field (ih f (by simp [hf])).skips
      · obtain rfl := List.mem_singleton.mp hf
        exact .field (.op rfl rfl (ih (xs, l) (by simp)).skips)
    · obtain ⟨f, hf, rfl⟩ := List.mem_map.mp ha
      exact .field (ih f (by simp [hf])).skips
  | @struct fs _ _ _ ih =>
    refine .struct ?_
    have : ∀ gs : List (List Str × List Tok), (∀ f ∈ gs, f ∈ fs) → Skips (gs.flatMap fun f => fieldToks f ++ [.op g!";"]) := by
      intro gs
      induction gs with
      | nil => exact fun _ => .nil
      | cons f gs ih' =>
        intro hg
        rw [List.flatMap_cons]
        exact ((Skips.field (ih f (hg f (by simp))).skips).append (.op rfl rfl .nil)).append (ih' fun x hx => hg x (by simp [hx]))
    exact this fs fun _ h => h
  | copied h => exact ht _ h

/-- The types that are taken from the source are types. -/
structure SourcesRead (S : Sources) : Prop where
  type : ∀ l, S.type l → TypeToks l
  variadic : ∀ l, S.variadic l → ∃ r, l = .op g!"..." :: r ∧ TypeToks r

theorem skips_names (xs : List Str) {l : List Tok} (h : Skips l) : Skips (putNames xs l) := by
  induction xs with
  | nil => exact h
  | cons x xs ih =>
    cases xs with
    | nil => exact .word _ h
    | cons y ys => exact .word _ (.op rfl rfl ih)

mutual

theorem ty_toks {S : Sources} (hs : SourcesRead S) : ∀ t : Ty, t.Ok S → TypeToks (t.put [])
  | .name x, h => by simp only [Ty.Ok] at h; exact .of_name h
  | .qual p x, h => by simp only [Ty.Ok] at h; exact .of_qual h.1
  | .ptr t, h => by simp only [Ty.Ok] at h; exact (ty_toks hs t h).ptr
  | .slice t, h => by simp only [Ty.Ok] at h; exact (ty_toks hs t h).slice
  | .map k v, h => by
    simp only [Ty.Ok] at h
    simp only [Ty.put]
    rw [k.put_append]
    exact .map (ty_toks hs k h.1).skips (ty_toks hs v h.2)
  | .chan t, h => by simp only [Ty.Ok] at h; exact (ty_toks hs t h).chan
  | .dots _, h => by simp only [Ty.Ok] at h
  | .func ps r, h => by
    simp only [Ty.Ok] at h
    have hp := groups_skip hs ps h.2.1
    have hr := h.2.2
    simp only [Ty.put]
    rw [putGroups_append]
    cases r with
    | none => exact .func0 hp
    | one t => simp only [Results.Ok] at hr; exact .func1 hp (ty_toks hs t hr.2)
    | list gs =>
      simp only [Results.Ok] at hr
      have := struct_skip hs gs hr.2
      simp only [Results.put]
      rw [putGroups_append gs]
      exact .func2 hp this
  | .iface ms, h => by
    simp only [Ty.Ok] at h
    simp only [Ty.put]
    rw [putMethods_append]
    exact .iface (methods_skip hs ms h)
  | .struct gs, h => by
    simp only [Ty.Ok] at h
    simp only [Ty.put]
    rw [putStruct_append]
    exact .struct (fields_skip hs gs h)
  | .toks l, h => by
    simp only [Ty.Ok] at h
    simp only [Ty.put, List.append_nil]
    exact hs.type l h
  | .part t, h => by
    simp only [Ty.Ok] at h
    simp only [Ty.put, List.append_nil]
    exact ty_toks hs t h

theorem group_skip {S : Sources} (hs : SourcesRead S) (last : Prop) : ∀ g : Group, g.Ok S last → Skips (g.put [])
  | .mk xs t, h => by
    simp only [Group.put]
    refine skips_names xs ?_
    cases t with
    | dots t => simp only [Group.Ok] at h; exact .op rfl rfl (ty_toks hs t h.2.2.2).skips
    | toks l =>
      simp only [Group.Ok] at h
      simp only [Ty.put, List.append_nil]
      rcases h.2 with h | h
      · exact (hs.type l h).skips
      · obtain ⟨r, rfl, hr⟩ := hs.variadic l h.2.2
        exact .op rfl rfl hr.skips
    | name x => simp only [Group.Ok] at h; exact (ty_toks hs _ h.2).skips
    | qual p x => simp only [Group.Ok] at h; exact (ty_toks hs _ h.2).skips
    | ptr t => simp only [Group.Ok] at h; exact (ty_toks hs _ h.2).skips
    | slice t => simp only [Group.Ok] at h; exact (ty_toks hs _ h.2).skips
    | map k v => simp only [Group.Ok] at h; exact (ty_toks hs _ h.2).skips
    | chan t => simp only [Group.Ok] at h; exact (ty_toks hs _ h.2).skips
    | func ps r => simp only [Group.Ok] at h; exact (ty_toks hs _ h.2).skips
    | iface ms => simp only [Group.Ok] at h; exact (ty_toks hs _ h.2).skips
    | struct gs => simp only [Group.Ok] at h; exact (ty_toks hs _ h.2).skips
    | part t => simp only [Group.Ok] at h; exact (ty_toks hs _ h.2).skips

theorem groups_skip {S : Sources} (hs : SourcesRead S) : ∀ gs : List Group, GroupsOk S gs → Skips (putGroups gs [])
  | [], _ => .nil
  | [g], h => by simp only [GroupsOk] at h; exact group_skip hs _ g h.1
  | g :: g' :: gs, h => by
    rw [GroupsOk] at h
    simp only [putGroups]
    rw [g.put_append]
    exact (group_skip hs _ g h.1).append (.op rfl rfl (groups_skip hs (g' :: gs) h.2))

theorem struct_skip {S : Sources} (hs : SourcesRead S) : ∀ gs : List Group, StructOk S gs → Skips (putGroups gs [])
  | [], _ => .nil
  | [g], h => by simp only [StructOk] at h; exact group_skip hs _ g h.1
  | g :: g' :: gs, h => by
    rw [StructOk] at h
    simp only [putGroups]
    rw [g.put_append]
    exact (group_skip hs _ g h.1).append (.op rfl rfl (struct_skip hs (g' :: gs) h.2))

theorem fields_skip {S : Sources} (hs : SourcesRead S) : ∀ gs : List Group, StructOk S gs → Skips (putStruct gs [])
  | [], _ => .nil
  | [g], h => by simp only [StructOk] at h; exact group_skip hs _ g h.1
  | g :: g' :: gs, h => by
    rw [StructOk] at h
    simp only [putStruct]
    rw [g.put_append]
    exact (group_skip hs _ g h.1).append (.op rfl rfl (fields_skip hs (g' :: gs) h.2))

theorem results_skip {S : Sources} (hs : SourcesRead S) : ∀ r : Results, r.Ok S → Skips (r.put [])
  | .none, _ => .nil
  | .one t, h => by simp only [Results.Ok] at h; exact (ty_toks hs t h.2).skips
  | .list gs, h => by
    simp only [Results.Ok] at h
    simp only [Results.put]
    rw [putGroups_append]
    exact .bracket rfl rfl rfl (struct_skip hs gs h.2) .nil

theorem methods_skip {S : Sources} (hs : SourcesRead S) : ∀ ms : List IfaceMethod, MethodsOk S ms → Skips (putMethods ms [])
  | [], _ => .nil
  | [m], h => by simp only [MethodsOk] at h; exact ifaceMethod_skip hs m h.1
  | m :: m' :: ms, h => by
    rw [MethodsOk] at h
    simp only [putMethods]
    rw [m.put_append]
    exact (ifaceMethod_skip hs m h.1).append (.op rfl rfl (methods_skip hs (m' :: ms) h.2))

theorem ifaceMethod_skip {S : Sources} (hs : SourcesRead S) : ∀ m : IfaceMethod, m.Ok S → Skips (m.put [])
  | .mk x ps r, h => by
    simp only [IfaceMethod.Ok] at h
    simp only [IfaceMethod.put]
    rw [putGroups_append]
    exact .word _ (.bracket rfl rfl rfl (groups_skip hs ps h.2.2.1) (results_skip hs r h.2.2.2))

end

end Gowrap.Go.Reader
