import Verif.Proofs.Loader
import Verif.Proofs.Path
/-!
# Properties of the template loader (C39 first half, C40, C41)

`n : Net` is an arbitrary network and file system; its answers may depend on the whole history.
-/

namespace Gowrap.Props

open Gowrap Spec

/-! ## C40 -/

/-- `b` was obtained by a successful GET of `url` after the history `h`: the request could be made and
was answered with status 200, the body was read completely and closed without error. -/
def Fetched (n : Net) (h : List Ev) (url : Str) (b : Bytes) : Prop :=
  n.newRequest url = none ∧ ∃ r, n.send (h ++ [.request url]) url = .ok r ∧ r.status = 200 ∧
    r.body = .ok b ∧ r.close = none

/-- **C40** An HTTP fetch returns content exactly if the request succeeded with status 200, the body
was read and closing succeeded.  In every case it sends at most one request, to the given URL, and
closes the body of the response, if there is one, exactly once, after reading it; it has no other effect,
and every failure is a returned error. -/
theorem C40_get (n : Net) (url : Str) (h : List Ev) :
    (∀ b, (n.get url h).1 = .ok b ↔ Fetched n h url b) ∧
    (∀ f, (n.get url h).1 = .error f → ∃ e, f = .error e) ∧
    ∃ ev, (n.get url h).2 = h ++ ev ∧
      (ev = [] ∨ ev = [.request url] ∨ (∃ s, s ≠ 200 ∧ ev = [.request url, .response s, .closeBody]) ∨
        ev = [.request url, .response 200, .readBody, .closeBody]) := by
  obtain ⟨ev, h1, h2⟩ := get_run n url h
  refine ⟨?_, ?_, ev, h1, ?_⟩
  · intro b
    constructor
    · intro hb
      rw [hb] at h2
      cases h2 with
      | done r b hn hs h2 hc hb => exact ⟨hn, r, hs, h2, hb, hc⟩
    · rintro ⟨hn, r, hs, hst, hb, hc⟩
      generalize hr : (n.get url h).1 = x at h2
      cases h2 with
      | badUrl e hn' => rw [hn] at hn'; cases hn'
      | noAnswer e _ hs' => rw [hs] at hs'; cases hs'
      | status r' e _ hs' hst' _ => rw [hs] at hs'; cases hs'; exact absurd hst hst'
      | closeFailed r' e _ hs' _ hc' => rw [hs] at hs'; cases hs'; rw [hc] at hc'; cases hc'
      | readFailed r' e _ hs' _ _ hb' => rw [hs] at hs'; cases hs'; rw [hb] at hb'; cases hb'
      | done r' b' _ hs' _ _ hb' => rw [hs] at hs'; cases hs'; rw [hb] at hb'; cases hb'; rfl
  · intro f hf
    rw [hf] at h2
    cases h2 <;> exact ⟨_, rfl⟩
  · generalize (n.get url h).1 = x at h2
    cases h2 with
    | badUrl => simp
    | noAnswer => simp
    | status r e _ _ hst _ => exact Or.inr (Or.inr (Or.inl ⟨_, hst, rfl⟩))
    | closeFailed => simp
    | readFailed => simp
    | done => simp

/-- **C40** in every run of the loader: each response body is closed exactly once. -/
theorem C40_bodies_closed (n : Net) (path : Str) (h : List Ev) :
    (∃ ev, (n.load path h).2 = h ++ ev ∧ BodiesClosed false ev) ∧
    (∃ ev, (n.list h).2 = h ++ ev ∧ BodiesClosed false ev) :=
  ⟨bodies_inv.load n path h, bodies_inv.list n h⟩

/-- A network for the examples: every request succeeds with an answer that depends on the URL. -/
def Demo.net (answer : Str → Resp) : Net where
  newRequest := fun _ => none
  send := fun _ u => .ok (answer u)
  commits := fun b => if b = [1] then some [g!"c0ffee", g!"0ld"] else if b = [2] then some [] else none
  tree := fun b => if b = [3] then
    some [g!"README.md", g!"templates", g!"templates/", g!"templates/log", g!"templates/templates/x"] else none
  statMissing := fun _ _ => true
  readFile := fun _ _ => .notExist
  gitRoot := fun _ => .ok g!"/src"
  missingCode := 2

/-- Non-vacuity of C40: a successful fetch, and a failure to close that discards the content. -/
example : ((Demo.net fun _ => ⟨200, .ok [7], none⟩).get g!"u" []).1 = .ok [7] ∧
    ((Demo.net fun _ => ⟨200, .ok [7], some (.external 3)⟩).get g!"u" []).1 = .error (.error (.external 3)) :=
  ⟨rfl, rfl⟩

/-! ## C41 -/

theorem hasPrefix_iff (s p : Str) : hasPrefix s p = true ↔ p <+: s := List.isPrefixOf_iff_prefix

theorem load_of_name {n : Net} {path : Str} (hu : ¬ IsUrl path) (hf : ¬ IsFileRef path) :
    n.load path = n.fetchFromGithub path := by
  unfold Net.load
  simp only [IsUrl, not_or] at hu
  rw [if_neg, if_neg]
  · rw [hasPrefix_iff]; exact hf
  · rw [Bool.or_eq_true, hasPrefix_iff, hasPrefix_iff]
    rintro (h | h)
    · exact hu.1 h
    · exact hu.2 h

/-- **C41** A template given by name is fetched in two steps: the list of commits, then the file at the
first commit of the list.  The result is returned exactly if both fetches succeed and the list starts
with that commit; the returned URL is the one fetched. -/
theorem C41_pinned (n : Net) (name : Str) (hu : ¬ IsUrl name) (hf : ¬ IsFileRef name) (h : List Ev)
    (b : Bytes) (url : Str) :
    (n.load name h).1 = .ok (b, url) ↔
      ∃ body commit others, Fetched n h (commitsUrl name) body ∧
        n.commits body = some (commit :: others) ∧ url = pinnedUrl commit name ∧
        Fetched n (h ++ [.request (commitsUrl name), .response 200, .readBody, .closeBody]) url b := by
  rw [load_of_name hu hf]
  unfold Net.fetchFromGithub
  rw [Act.run_bind]
  have e1 : urlCommits name = commitsUrl name := rfl
  rw [e1]
  cases hg : n.get (commitsUrl name) h with
  | mk r h1 =>
    cases r with
    | error f =>
      simp only [reduceCtorEq, false_iff]
      rintro ⟨body, _, _, hb, _⟩
      have := ((C40_get n (commitsUrl name) h).1 body).2 hb
      rw [hg] at this; cases this
    | ok body =>
      have hfet := ((C40_get n (commitsUrl name) h).1 body).1 (by rw [hg])
      obtain ⟨_, _, _, _, _, _, rfl⟩ := get_ok hg
      have huniq : ∀ body', Fetched n h (commitsUrl name) body' → body' = body := by
        intro body' hb
        have := ((C40_get n (commitsUrl name) h).1 body').2 hb
        rw [hg] at this; cases this; rfl
      simp only
      rcases hc : n.commits body with _ | (_ | ⟨sha, others⟩)
      · simp only [Act.run_fail, reduceCtorEq, false_iff]
        rintro ⟨body', _, _, hb, hc', _⟩
        rw [huniq _ hb, hc] at hc'; cases hc'
      · simp only [Act.run_fail, reduceCtorEq, false_iff]
        rintro ⟨body', _, _, hb, hc', _⟩
        rw [huniq _ hb, hc] at hc'; cases hc'
      · simp only
        have e2 : urlRaw sha name = pinnedUrl sha name := rfl
        rw [e2, Act.run_bind]
        have hsnd : ∀ c, Fetched n (h ++ [.request (commitsUrl name), .response 200, .readBody, .closeBody])
            (pinnedUrl sha name) c ↔ (n.get (pinnedUrl sha name)
              (h ++ [.request (commitsUrl name), .response 200, .readBody, .closeBody])).1 = .ok c :=
          fun c => ((C40_get n _ _).1 c).symm
        cases hg2 : n.get (pinnedUrl sha name)
            (h ++ [.request (commitsUrl name), .response 200, .readBody, .closeBody]) with
        | mk r2 h2 =>
          rw [hg2] at hsnd
          cases r2 with
          | error f =>
            simp only [reduceCtorEq, false_iff]
            rintro ⟨body', c', o', hb, hc', rfl, hf'⟩
            rw [huniq _ hb, hc] at hc'; cases hc'
            have := (hsnd _).1 hf'
            cases this
          | ok c =>
            simp only [Act.run_pure, Except.ok.injEq, Prod.mk.injEq]
            constructor
            · rintro ⟨rfl, rfl⟩
              exact ⟨body, sha, others, hfet, hc, rfl, (hsnd _).2 rfl⟩
            · rintro ⟨body', c', o', hb, hc', rfl, hf'⟩
              rw [huniq _ hb, hc] at hc'; cases hc'
              have := (hsnd _).1 hf'
              cases this
              exact ⟨rfl, rfl⟩

theorem get_requests {n : Net} {url : Str} {h h' : List Ev} {r : Except Fail Bytes}
    (hg : n.get url h = (r, h')) : ∃ ev, h' = h ++ ev ∧ (requests ev = [] ∨ requests ev = [url]) := by
  obtain ⟨_, _, ev, h1, h2⟩ := C40_get n url h
  rw [hg] at h1
  refine ⟨ev, h1, ?_⟩
  rcases h2 with rfl | rfl | ⟨s, _, rfl⟩ | rfl <;> simp [requests]

/-- **C41** The requests made for a template given by name: first the commit list; the file only after
a successful answer which names a commit, and then at the first commit.  If there is no commit the
result is the not-found error, after that single request. -/
theorem C41_requests (n : Net) (name : Str) (hu : ¬ IsUrl name) (hf : ¬ IsFileRef name) (h : List Ev) :
    (∃ ev, (n.load name h).2 = h ++ ev ∧
      (requests ev = [] ∨ requests ev = [commitsUrl name] ∨
        ∃ body commit others, Fetched n h (commitsUrl name) body ∧
          n.commits body = some (commit :: others) ∧
          requests ev = [commitsUrl name, pinnedUrl commit name])) ∧
    (∀ body, Fetched n h (commitsUrl name) body → n.commits body = some [] →
      (n.load name h).1 = .error (.error .templateNotFound) ∧
      ∃ ev, (n.load name h).2 = h ++ ev ∧ requests ev = [commitsUrl name]) := by
  rw [load_of_name hu hf]
  unfold Net.fetchFromGithub
  rw [Act.run_bind]
  have e1 : urlCommits name = commitsUrl name := rfl
  rw [e1]
  cases hg : n.get (commitsUrl name) h with
  | mk r h1 =>
    cases r with
    | error f =>
      refine ⟨?_, ?_⟩
      · obtain ⟨ev, h2, h3⟩ := get_requests hg
        exact ⟨ev, h2, h3.elim Or.inl fun h => Or.inr (Or.inl h)⟩
      · intro body hb
        have := ((C40_get n (commitsUrl name) h).1 body).2 hb
        rw [hg] at this; cases this
    | ok body =>
      have hfet := ((C40_get n (commitsUrl name) h).1 body).1 (by rw [hg])
      obtain ⟨_, _, _, _, _, _, rfl⟩ := get_ok hg
      have huniq : ∀ body', Fetched n h (commitsUrl name) body' → body' = body := by
        intro body' hb
        have := ((C40_get n (commitsUrl name) h).1 body').2 hb
        rw [hg] at this; cases this; rfl
      simp only
      rcases hc : n.commits body with _ | (_ | ⟨sha, others⟩)
      · refine ⟨⟨_, rfl, Or.inr (Or.inl ?_)⟩, ?_⟩
        · simp [requests]
        · intro body' hb hc'
          rw [huniq _ hb, hc] at hc'; cases hc'
      · exact ⟨⟨_, rfl, Or.inr (Or.inl (by simp [requests]))⟩,
          fun _ _ _ => ⟨rfl, _, rfl, by simp [requests]⟩⟩
      · simp only
        have e2 : urlRaw sha name = pinnedUrl sha name := rfl
        rw [e2, Act.run_bind]
        refine ⟨?_, ?_⟩
        · cases hg2 : n.get (pinnedUrl sha name)
            (h ++ [.request (commitsUrl name), .response 200, .readBody, .closeBody]) with
          | mk r2 h2 =>
            obtain ⟨ev, rfl, h3⟩ := get_requests hg2
            have hev : ∀ x : Except Fail (Bytes × Str), ∃ ev', (x, h ++ [.request (commitsUrl name),
                .response 200, .readBody, .closeBody] ++ ev).2 = h ++ ev' ∧
                (requests ev' = [] ∨ requests ev' = [commitsUrl name] ∨
                ∃ body commit others, Fetched n h (commitsUrl name) body ∧
                  n.commits body = some (commit :: others) ∧
                  requests ev' = [commitsUrl name, pinnedUrl commit name]) := by
              intro x
              refine ⟨[.request (commitsUrl name), .response 200, .readBody, .closeBody] ++ ev,
                by simp, ?_⟩
              rcases h3 with h3 | h3
              · right; left; simpa [requests] using h3
              · right; right
                exact ⟨body, sha, others, hfet, hc, by simpa [requests] using h3⟩
            cases r2 with
            | error f => exact hev _
            | ok c => exact hev _
        · intro body' hb hc'
          rw [huniq _ hb, hc] at hc'; cases hc'

/-- The joined path is followed from the place of the first path, even if the second one begins with a slash. -/
theorem joinPath_denotes {root : Str} (p : Str) (hr : root ≠ []) (cwd dir ws : List Str) (h : Denotes cwd root dir) (hw : Pieces p ws) :
    Denotes cwd (joinPath root p) (walk dir ws) := by
  have gen : ∀ (q : Str) (vs : List Str), Pieces q vs → ∀ x, pieces (q ++ '/' :: x) = vs ++ pieces x := by
    intro q vs hq
    induction hq with
    | one w hw => intro x; rw [pieces_cons w x hw]; rfl
    | cons w p ws hw _ ih =>
      intro x
      rw [List.append_assoc, List.cons_append, pieces_cons w _ hw, ih x]; rfl
  rw [denotes_iff] at h ⊢
  rw [h, ← pieces_of hw]
  unfold joinPath
  rw [if_neg hr]
  split
  · next hp =>
    subst hp
    rw [locate_cleanPath]
    simp [pieces, walk, follow]
  · rw [locate_cleanPath]
    have hh : (root ++ g!"/" ++ p).head? = root.head? := by
      cases root with
      | nil => exact absurd rfl hr
      | cons c r => rfl
    have e : root ++ g!"/" ++ p = root ++ '/' :: p := by simp
    rw [locate, locate, hh, e, gen root _ (exists_pieces root), walk_append]

/-- **C41** URLs and file references are dispatched by their prefix and never contact the repository:
a URL is fetched itself and returned as it is; a file reference is looked up locally, as given or, if it
does not exist, relative to the root of the git work tree; the result is the contents of the file that is named. -/
theorem C41_dispatch (n : Net) (path : Str) (h : List Ev) :
    (IsUrl path → (∀ b url, (n.load path h).1 = .ok (b, url) ↔ Fetched n h path b ∧ url = path) ∧
      ∃ ev, (n.load path h).2 = h ++ ev ∧ (requests ev = [] ∨ requests ev = [path])) ∧
    (¬ IsUrl path → IsFileRef path →
      ∃ ev, (n.load path h).2 = h ++ ev ∧ requests ev = [] ∧
        ∀ b url, (n.load path h).1 = .ok (b, url) →
          filesRead ev = [url] ∧ n.readFile (h ++ ev) url = .contents b ∧
          ((path = g!"file://" ++ url ∧ Ev.gitRoot ∉ ev ∧ n.statMissing (h ++ [.stat url]) url = false) ∨
           ∃ p root, path = g!"file://" ++ p ∧ n.statMissing (h ++ [.stat p]) p = true ∧
             n.gitRoot (h ++ [.stat p, .gitRoot]) = .ok root ∧
             (root ≠ [] → ∀ cwd dir ws, Denotes cwd root dir → Pieces p ws → Denotes cwd url (walk dir ws)))) := by
  constructor
  · intro hu
    have hl : n.load path = (do let body ← n.get path; pure (body, path)) := by
      unfold Net.load
      rw [if_pos]
      rw [Bool.or_eq_true, hasPrefix_iff, hasPrefix_iff]
      exact hu
    rw [hl, Act.run_bind]
    have hget := (C40_get n path h).1
    cases hg : n.get path h with
    | mk r h1 =>
      rw [hg] at hget
      obtain ⟨ev, h2, h3⟩ := get_requests hg
      cases r with
      | error f =>
        refine ⟨?_, ev, h2, h3⟩
        intro b url
        simp only [reduceCtorEq, false_iff]
        rintro ⟨hb, _⟩
        have := (hget b).2 hb
        cases this
      | ok c =>
        refine ⟨?_, ev, h2, h3⟩
        intro b url
        simp only [Act.run_pure, Except.ok.injEq, Prod.mk.injEq]
        rw [← hget b, Except.ok.injEq]
        exact ⟨fun ⟨a, b⟩ => ⟨a, b.symm⟩, fun ⟨a, b⟩ => ⟨a, b.symm⟩⟩
  · intro hu hf
    obtain ⟨p, hp⟩ := hf
    have hl : n.load path = (do
        Act.emit (.stat p)
        let missing ← Act.ask (fun h => n.statMissing h p)
        if missing then do
          let q ← n.absGitPath p
          let body ← n.readLocal q
          pure (body, q)
        else do
          let body ← n.readLocal p
          pure (body, p)) := by
      have hd : path.drop 7 = p := by rw [← hp]; rfl
      unfold Net.load
      rw [if_neg, if_pos, hd]
      · rw [hasPrefix_iff]; exact ⟨p, hp⟩
      · rw [Bool.or_eq_true, hasPrefix_iff, hasPrefix_iff]
        exact hu
    rw [hl]
    simp only [Act.run_emit_bind, Act.run_ask_bind]
    have hread : ∀ (q : Str) (h0 : List Ev), ∃ r, (do let body ← n.readLocal q; pure (body, q) : Act _) h0 =
        (r, h0 ++ [.readFile q]) ∧ ∀ b url, r = .ok (b, url) → url = q ∧ n.readFile (h0 ++ [.readFile q]) q = .contents b := by
      intro q h0
      rw [Act.run_bind]
      unfold Net.readLocal
      simp only [Act.run_emit_bind, Act.run_ask_bind]
      cases hc : n.readFile (h0 ++ [.readFile q]) q with
      | contents c =>
        refine ⟨.ok (c, q), rfl, ?_⟩
        intro b url hb; cases hb; exact ⟨rfl, rfl⟩
      | notExist => exact ⟨_, rfl, by intro b url hb; cases hb⟩
      | failed c => exact ⟨_, rfl, by intro b url hb; cases hb⟩
    split
    · next hmiss =>
      rw [Act.run_bind]
      unfold Net.absGitPath
      simp only [Act.run_emit_bind, Act.run_ask_bind]
      cases hroot : n.gitRoot (h ++ [Ev.stat p] ++ [Ev.gitRoot]) with
      | error e =>
        refine ⟨[.stat p, .gitRoot], by simp, by simp [requests], ?_⟩
        intro b url hb; cases hb
      | ok root =>
        obtain ⟨r, hr, hq⟩ := hread (joinPath root p) (h ++ [Ev.stat p] ++ [Ev.gitRoot])
        simp only [Act.run_pure]
        rw [hr]
        refine ⟨[.stat p, .gitRoot, .readFile (joinPath root p)], by simp, by simp [requests], ?_⟩
        intro b url hb
        obtain ⟨this, hc⟩ := hq b url hb
        subst this
        exact ⟨by simp [filesRead], by simpa using hc, Or.inr ⟨p, root, hp.symm, hmiss, by simpa using hroot, joinPath_denotes p⟩⟩
    · next hmiss =>
      obtain ⟨r, hr, hq⟩ := hread p (h ++ [Ev.stat p])
      rw [hr]
      refine ⟨[.stat p, .readFile p], by simp, by simp [requests], ?_⟩
      intro b url hb
      obtain ⟨this, hc⟩ := hq b url hb
      subst this
      exact ⟨by simp [filesRead], by simpa using hc, Or.inl ⟨hp.symm, by simp, by simpa using hmiss⟩⟩

/-- Non-vacuity of C41: the demo repository answers the commit list with two commits and every other
request with the content `[9]`; a repository without commits yields not-found. -/
example : ¬ IsUrl g!"retry" ∧ ¬ IsFileRef g!"retry" ∧
    ((Demo.net fun u => if u = commitsUrl g!"retry" then ⟨200, .ok [1], none⟩ else ⟨200, .ok [9], none⟩).load
      g!"retry" []).1 =
      .ok ([9], g!"https://raw.githubusercontent.com/hexdigest/gowrap/c0ffee/templates/retry") ∧
    ((Demo.net fun _ => ⟨200, .ok [2], none⟩).load g!"retry" []).1 = .error (.error .templateNotFound) := by
  refine ⟨?_, ?_, rfl, rfl⟩
  · simp [IsUrl]
  · simp [IsFileRef]

example : IsUrl g!"http://example.org/t" ∧ ¬ IsUrl g!"file:///t" ∧ IsFileRef g!"file:///t" := by
  simp [IsUrl, IsFileRef]

/-! ## C39, the list -/

theorem removeFirst_prefix (old rest : Str) (hne : old ≠ []) : removeFirst old (old ++ rest) = rest := by
  cases old with
  | nil => exact absurd rfl hne
  | cons c cs =>
    rw [List.cons_append, removeFirst, if_pos]
    · rw [← List.cons_append, List.drop_left]
    · rw [hasPrefix_iff, ← List.cons_append]; exact List.prefix_append _ _

/-- **C39** The listed names are, in tree order, exactly the non-empty `x` with `templates/x` in the
tree, each as often as it occurs there. -/
theorem C39_names (leaves : List Str) :
    ((treeTemplates leaves).map (g!"templates/" ++ ·)).Sublist leaves ∧
    ∀ x, (treeTemplates leaves).count x = if x = [] then 0 else leaves.count (g!"templates/" ++ x) := by
  induction leaves with
  | nil => exact ⟨by simp [treeTemplates], by intro x; simp [treeTemplates]⟩
  | cons leaf rest ih =>
    obtain ⟨ih1, ih2⟩ := ih
    rw [treeTemplates]
    split
    · rename_i hc
      rw [Bool.and_eq_true, hasPrefix_iff] at hc
      obtain ⟨⟨x, hx⟩, hne⟩ := hc
      have hpre : templatesPathPrefix = g!"templates/" := rfl
      have hr : removeFirst templatesPathPrefix leaf = x := by
        rw [← hx]; exact removeFirst_prefix _ _ (by decide)
      have hx0 : x ≠ [] := by
        rintro rfl
        rw [List.append_nil] at hx
        rw [hx] at hne
        simp at hne
      rw [hr, ← hx, hpre]
      refine ⟨?_, ?_⟩
      · rw [List.map_cons]; exact ih1.cons_cons _
      · intro y
        have := ih2 y
        rw [List.count_cons, List.count_cons, this]
        by_cases hy : y = []
        · subst hy; simp [hx0]
        · simp only [hy, if_false]
          congr 1
    · rename_i hc
      refine ⟨ih1.cons _, ?_⟩
      intro y
      rw [ih2 y, List.count_cons]
      by_cases hy : y = []
      · simp [hy]
      · simp only [hy, if_false]
        have : (leaf == g!"templates/" ++ y) = false := by
          rw [beq_eq_false_iff_ne]
          rintro rfl
          refine hc ?_
          rw [Bool.and_eq_true, hasPrefix_iff]
          refine ⟨List.prefix_append _ _, ?_⟩
          simp only [bne_iff_ne, ne_eq]
          intro h
          have := congrArg List.length h
          simp [templatesPathPrefix] at this
          exact hy this
        rw [this]; simp

/-- **C39** `List` succeeds exactly if the tree could be fetched and decoded, with those names. -/
theorem C39_list (n : Net) (h : List Ev) (names : List Str) :
    (n.list h).1 = .ok names ↔ ∃ body leaves,
      Fetched n h g!"https://api.github.com/repos/hexdigest/gowrap/git/trees/master?recursive=1" body ∧
      n.tree body = some leaves ∧ names = treeTemplates leaves := by
  unfold Net.list
  rw [Act.run_bind]
  have hget := (C40_get n urlTree h).1
  have e : urlTree = g!"https://api.github.com/repos/hexdigest/gowrap/git/trees/master?recursive=1" := rfl
  rw [← e]
  cases hg : n.get urlTree h with
  | mk r h1 =>
    rw [hg] at hget
    cases r with
    | error f =>
      simp only [reduceCtorEq, false_iff]
      rintro ⟨body, _, hb, _⟩
      have := (hget body).2 hb
      cases this
    | ok c =>
      have hc := (hget c).1 rfl
      have huniq : ∀ body, Fetched n h urlTree body → body = c := by
        intro body hb
        have := (hget body).2 hb
        cases this; rfl
      simp only
      cases ht : n.tree c with
      | none =>
        simp only [Act.run_fail, reduceCtorEq, false_iff]
        rintro ⟨body, leaves, hb, hl, _⟩
        rw [huniq _ hb, ht] at hl; cases hl
      | some leaves =>
        simp only [Act.run_pure, Except.ok.injEq]
        constructor
        · rintro rfl; exact ⟨c, leaves, hc, ht, rfl⟩
        · rintro ⟨body, l, hb, hl, rfl⟩
          rw [huniq _ hb, ht] at hl; cases hl; rfl

/-- Non-vacuity of C39. -/
example : ((Demo.net fun _ => ⟨200, .ok [3], none⟩).list []).1 = .ok [g!"log", g!"templates/x"] := rfl

end Gowrap.Props
