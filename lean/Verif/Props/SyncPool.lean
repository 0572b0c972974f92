import Verif.Props.Control
import Verif.Proofs.Shared
import Verif.Spec.Pool
/-!
# C49: the pool of implementations
-/

namespace Gowrap.Props

open Gowrap Spec Tmpl

/-- Calls on a pool. -/
def SyncCall (G : GoTypes) (t : Tree Outcome) : Prop :=
  ∃ m recv args, Callable m recv [g!"_impl"] args ∧ t = syncPoolDecorator.call G m recv args

/-- Executions of a pool. -/
def SyncExec (G : GoTypes) (s0 : PoolState) : List Label → Conf PoolState (Tree Outcome) → Prop :=
  Exec Tree.Step poolHandler noBackground (SyncCall G) s0

/-- Locations in a call. -/
inductive SyncLoc where
  | start (m : Method) (args : List Val)
  | inside (v : Val) (m : Method) (args : List Val)
  | after (v : Val) (o : Outcome)
  | over (o : Outcome)

/-- What remains to be done at a location. -/
def SyncLoc.tree : SyncLoc → Tree Outcome
  | .start m args => syncPoolT m args
  | .inside v m args => .vis (.impl v m.name args m.results.length) fun
    | .ok vs => .vis (.putImpl v) fun _ => .ret (.ret vs.1)
    | .error p => .vis (.putImpl v) fun _ => .ret (.panic p)
  | .after v o => .vis (.putImpl v) fun _ => .ret o
  | .over o => .ret o

/-- The implementation held at a location. -/
def SyncLoc.held : SyncLoc → Option Val
  | .inside v _ _ => some v
  | .after v _ => some v
  | _ => none

/-- Steps between locations. -/
inductive SyncLoc.Step : SyncLoc → Event → SyncLoc → Prop
  | take (m : Method) (args : List Val) (v : Val) : Step (.start m args) ⟨.takeImpl, v⟩ (.inside v m args)
  | call (v : Val) (m : Method) (args : List Val) (x : Except Val (Vals m.results.length)) :
      Step (.inside v m args) ⟨.impl v m.name args m.results.length, x⟩ (.after v (passedOn (plain x)))
  | put (v : Val) (o : Outcome) : Step (.after v o) ⟨.putImpl v, ()⟩ (.over o)

/-- The operations performed at a location. -/
def SyncLoc.Trace : SyncLoc → List Event → Prop
  | .start _ _, tr => tr = []
  | .inside v _ _, tr => tr = [⟨.takeImpl, v⟩]
  | .after v o, tr => ∃ (m : Method) (args : List Val) (x : Except Val (Vals m.results.length)), passedOn (plain x) = o ∧
      tr = [⟨.takeImpl, v⟩, ⟨.impl v m.name args m.results.length, x⟩]
  | .over o, tr => ∃ (v : Val) (m : Method) (args : List Val) (x : Except Val (Vals m.results.length)), passedOn (plain x) = o ∧
      tr = [⟨.takeImpl, v⟩, ⟨.impl v m.name args m.results.length, x⟩, ⟨.putImpl v, ()⟩]

theorem sync_locs {G : GoTypes} {s0 : PoolState} {L : List Label} {c : Conf PoolState (Tree Outcome)}
    (h : SyncExec G s0 L c) : ∃ ls, c.threads = ls.map SyncLoc.tree ∧
      Exec SyncLoc.Step poolHandler noBackground (fun l => ∃ m args, l = .start m args) s0 L ⟨c.shared, ls⟩ := by
  refine Exec.locs SyncLoc.tree SyncLoc.Step (fun l => ∃ m args, l = .start m args) ?_ ?_ h
  · rintro t ⟨m, recv, args, hc, rfl⟩
    exact ⟨.start m args, (syncPool_call G hc).symm, m, args, rfl⟩
  · rintro l ⟨op, r⟩ t' ⟨k, hk, rfl⟩
    cases l with
    | start m args =>
      rw [SyncLoc.tree, syncPoolT] at hk
      injection hk with h1 h2
      subst h1
      cases h2
      exact ⟨.inside r m args, Tree.vis_congr (fun x => by cases x <;> rfl), .take m args r⟩
    | inside v m args =>
      rw [SyncLoc.tree] at hk
      injection hk with h1 h2
      subst h1
      cases h2
      refine ⟨.after v (passedOn (plain r)), ?_, .call v m args r⟩
      cases r <;> rfl
    | after v o =>
      rw [SyncLoc.tree] at hk
      injection hk with h1 h2
      subst h1
      cases h2
      exact ⟨.over o, rfl, .put v o⟩
    | over o => cases hk

theorem sync_inv {s0 : PoolState} {L : List Label} {c : Conf PoolState SyncLoc}
    (h : Exec SyncLoc.Step poolHandler noBackground (fun l => ∃ m args, l = .start m args) s0 L c) :
    c.shared.cap = s0.cap ∧ (c.threads.filterMap SyncLoc.held ++ c.shared.buffer).Perm s0.buffer := by
  induction h with
  | start => exact ⟨rfl, .refl _⟩
  | call h ht ih =>
    obtain ⟨m, args, rfl⟩ := ht
    refine ⟨ih.1, ?_⟩
    show List.Perm (List.filterMap _ (_ ++ _) ++ _) _
    rw [List.filterMap_append, show List.filterMap SyncLoc.held [.start m args] = [] from rfl, List.append_nil]
    exact ih.2
  | @step L c i t t' e s' h hi ht hs ih =>
    obtain ⟨h1, h2⟩ := ih
    cases ht with
    | take m args v =>
      obtain ⟨rest, hb, rfl⟩ := hs
      refine ⟨h1, ?_⟩
      have := filterMap_set_some SyncLoc.held (a := .start m args) (a' := .inside v m args) rfl rfl hi
      refine (this.append_right _).trans (List.Perm.trans ?_ h2)
      rw [hb]
      exact List.perm_middle.symm
    | call v m args x =>
      have : s' = c.shared := hs
      subst this
      refine ⟨h1, ?_⟩
      show List.Perm (List.filterMap _ _ ++ _) _
      rw [filterMap_set_same SyncLoc.held (by rfl) hi]
      exact h2
    | put v o =>
      obtain ⟨_, rfl⟩ := hs
      refine ⟨h1, ?_⟩
      have hlt := (List.getElem?_eq_some_iff.1 hi).1
      have := filterMap_set_some SyncLoc.held (l := c.threads.set i (.over o)) (a := .over o) (a' := .after v o) rfl rfl
        (List.getElem?_set_self hlt)
      have hself : c.threads.set i (.after v o) = c.threads := by
        rw [← (List.getElem?_eq_some_iff.1 hi).2, List.set_getElem_self]
      rw [List.set_set, hself] at this
      refine List.Perm.trans ?_ h2
      refine List.Perm.trans ?_ (this.symm.append_right _)
      show List.Perm (_ ++ (c.shared.buffer ++ [v])) _
      rw [← List.append_assoc]
      exact List.perm_append_comm
  | bg h hb ih => exact hb.elim

theorem sync_trace {s0 : PoolState} {L : List Label} {c : Conf PoolState SyncLoc}
    (h : Exec SyncLoc.Step poolHandler noBackground (fun l => ∃ m args, l = .start m args) s0 L c) :
    ∀ (i : Nat) (l : SyncLoc), c.threads[i]? = some l → l.Trace (mine i L) := by
  refine Exec.local SyncLoc.Trace (fun _ _ _ h => h.elim) ?_ ?_ h
  · rintro t ⟨m, args, rfl⟩; rfl
  · intro t e t' tr _ _ ht hs _
    cases hs with
    | take m args v => cases ht; rfl
    | call v m args x => cases ht; exact ⟨m, args, x, rfl, rfl⟩
    | put v o =>
      obtain ⟨m, args, x, rfl, rfl⟩ := ht
      exact ⟨v, m, args, x, rfl, rfl⟩

/-- A thread holds what its location says. -/
theorem SyncLoc.Trace.holds {l : SyncLoc} {L : List Label} {i : Nat} {v : Val} (h : l.Trace (mine i L)) :
    Holds L i v ↔ l.held = some v := by
  unfold Holds
  cases l with
  | start m args => rw [show mine i L = [] from h]; simp [held]
  | inside w m args =>
    rw [show mine i L = [⟨.takeImpl, w⟩] from h]
    simp [held, eq_comm]
  | after w o =>
    obtain ⟨m, args, x, _, h⟩ := h
    rw [h]
    simp [held, eq_comm]
  | over o =>
    obtain ⟨w, m, args, x, _, h⟩ := h
    rw [h]
    simp [held]

/-- **C49** Every pooled implementation is used by at most one call at a time; it is put back when its call
has returned or panicked, without waiting; a waiting call can proceed whenever an implementation is idle;
and when all calls have ended the pool is complete. -/
theorem C49_pool (G : GoTypes) (impls : List Val) (s0 : PoolState) (L : List Label)
    (c : Conf PoolState (Tree Outcome)) (hnew : PoolState.new impls = some s0) (h : SyncExec G s0 L c) :
    -- calls are made on implementations taken from the pool, each held by one goroutine
    (∀ i v, Inside c i v → Holds L i v) ∧
    (∀ i v, Holds L i v → v ∈ impls) ∧
    (impls.Nodup → ∀ i j v, Holds L i v → Holds L j v → i = j) ∧
    -- the implementation goes back when the call has returned or panicked
    (∀ i o, Ended c i o → ∃ v name args n, ∃ r : Except Val (Vals n),
      mine i L = [⟨.takeImpl, v⟩, ⟨.impl v name args n, r⟩, ⟨.putImpl v, ()⟩] ∧ o = passedOn (plain r)) ∧
    (∀ i v, Holds L i v → Inside c i v ∨ ∃ k, c.threads[i]? = some (.vis (.putImpl v) k)) ∧
    (∀ i v k, c.threads[i]? = some (.vis (.putImpl v) k) → CanStep poolHandler c i) ∧
    -- an idle implementation can be taken
    (∀ i k, c.threads[i]? = some (.vis .takeImpl k) → (∃ v ∈ impls, ∀ j, ¬ Holds L j v) → CanStep poolHandler c i) ∧
    -- nothing is lost
    ((∀ i, i < c.threads.length → ∃ o, Ended c i o) → c.shared.buffer.Perm impls) := by
  have hs0 : s0 = ⟨impls.length, impls⟩ := by
    rw [PoolState.new] at hnew
    split at hnew
    · cases hnew
    · exact (Option.some.inj hnew).symm
  subst hs0
  obtain ⟨ls, hls, he⟩ := sync_locs h
  obtain ⟨hcap, hperm⟩ := sync_inv he
  have htr := sync_trace he
  have hloc : ∀ (i : Nat) t, c.threads[i]? = some t → ∃ l : SyncLoc, ls[i]? = some l ∧ l.tree = t := by
    intro i t hi
    rw [hls, List.getElem?_map] at hi
    cases hl : ls[i]? with
    | none => rw [hl] at hi; cases hi
    | some l => rw [hl] at hi; exact ⟨l, rfl, Option.some.inj hi⟩
  have hholds : ∀ i v, Holds L i v → ∃ l : SyncLoc, ls[i]? = some l ∧ l.held = some v := by
    intro i v hv
    have hlt := Exec.thread_lt (fun _ _ _ h => h.elim) he i _ (mem_mine.1 hv.1)
    have hl : ls[i]? = some ls[i] := List.getElem?_eq_getElem hlt
    exact ⟨_, hl, (htr i _ hl).holds.1 hv⟩
  have hnd : impls.Nodup → (ls.filterMap SyncLoc.held).Nodup := fun hd =>
    (List.nodup_append.1 (hperm.nodup_iff.2 hd)).1
  refine ⟨?_, ?_, ?_, ?_, ?_, ?_, ?_, ?_⟩
  · rintro i v ⟨name, args, n, k, hi⟩
    obtain ⟨l, hl, ht⟩ := hloc i _ hi
    refine (htr i l hl).holds.2 ?_
    cases l with
    | inside w m a =>
      rw [SyncLoc.tree] at ht
      injection ht with h1 _
      injection h1 with h1
      rw [SyncLoc.held, h1]
    | start m a => rw [SyncLoc.tree, syncPoolT] at ht; injection ht with h1 _; cases h1
    | after w o => rw [SyncLoc.tree] at ht; injection ht with h1 _; cases h1
    | over o => cases ht
  · intro i v hv
    obtain ⟨l, hl, hh⟩ := hholds i v hv
    exact hperm.subset (List.mem_append_left _ (List.mem_filterMap.2 ⟨l, List.mem_of_getElem? hl, hh⟩))
  · intro hd i j v hi hj
    obtain ⟨l, hl, hh⟩ := hholds i v hi
    obtain ⟨l', hl', hh'⟩ := hholds j v hj
    exact filterMap_inj SyncLoc.held (hnd hd) hl hl' hh hh'
  · intro i o hi
    obtain ⟨l, hl, ht⟩ := hloc i _ hi
    cases l with
    | over o' =>
      cases ht
      obtain ⟨v, m, args, x, rfl, h⟩ := htr i _ hl
      exact ⟨v, _, args, _, x, h, rfl⟩
    | start m a => cases ht
    | inside w m a => cases ht
    | after w o' => cases ht
  · intro i v hv
    obtain ⟨l, hl, hh⟩ := hholds i v hv
    have ht : c.threads[i]? = some l.tree := by rw [hls, List.getElem?_map, hl]; rfl
    cases l with
    | start m a => cases hh
    | inside w m a => cases hh; exact Or.inl ⟨_, _, _, _, ht⟩
    | after w o' => cases hh; exact Or.inr ⟨_, ht⟩
    | over o' => cases hh
  · intro i v k hi
    obtain ⟨l, hl, ht⟩ := hloc i _ hi
    refine ⟨_, ⟨.putImpl v, ()⟩, _, _, hi, ⟨k, rfl, rfl⟩, ?_, rfl⟩
    have hh : ∃ w, l.held = some w := by
      cases l with
      | start m a => rw [SyncLoc.tree, syncPoolT] at ht; injection ht with h1 _; cases h1
      | inside w m a => exact ⟨w, rfl⟩
      | after w o' => exact ⟨w, rfl⟩
      | over o' => cases ht
    obtain ⟨w, hh⟩ := hh
    have hlen := hperm.length_eq
    have hpos : 0 < (ls.filterMap SyncLoc.held).length :=
      List.length_pos_of_mem (List.mem_filterMap.2 ⟨l, List.mem_of_getElem? hl, hh⟩)
    rw [List.length_append] at hlen
    show c.shared.buffer.length < c.shared.cap
    have hcap : c.shared.cap = impls.length := hcap
    have hlen : _ + c.shared.buffer.length = impls.length := hlen
    have hpos : 0 < (List.filterMap SyncLoc.held (⟨c.shared, ls⟩ : Conf PoolState SyncLoc).threads).length := hpos
    omega
  · rintro i k hi ⟨v, hv, hidle⟩
    have hmem : v ∈ c.shared.buffer := by
      rcases List.mem_append.1 (hperm.symm.subset hv) with hm | hm
      · obtain ⟨l, hl, hh⟩ := List.mem_filterMap.1 hm
        obtain ⟨j, hj⟩ := List.getElem?_of_mem hl
        exact absurd ((htr j l hj).holds.2 hh) (hidle j)
      · exact hm
    match hb : c.shared.buffer, hmem with
    | w :: rest, _ => exact ⟨_, ⟨.takeImpl, w⟩, _, _, hi, ⟨k, rfl, rfl⟩, rest, hb, rfl⟩
  · intro hall
    have hnil : ls.filterMap SyncLoc.held = [] := by
      rw [List.filterMap_eq_nil_iff]
      intro l hl
      obtain ⟨i, hi⟩ := List.getElem?_of_mem hl
      have ht : c.threads[i]? = some l.tree := by rw [hls, List.getElem?_map, hi]; rfl
      have hlt := (List.getElem?_eq_some_iff.1 ht).1
      obtain ⟨o, ho⟩ := hall i hlt
      rw [Ended, ht] at ho
      cases l with
      | start m a => rfl
      | inside w m a => cases Option.some.inj ho
      | after w o' => cases Option.some.inj ho
      | over o' => rfl
    rw [hnil] at hperm
    exact hperm

/-- An empty pool cannot be made. -/
theorem C49_empty : PoolState.new [] = none := rfl

/-- A call on a pool of two that panics. -/
example : ∃ L c, SyncExec demoTypes ⟨2, [.obj 0, .obj 1]⟩ L c ∧ Ended c 0 (.panic (.obj 9)) ∧
    c.shared.buffer = [.obj 1, .obj 0] := by
  have hc : Callable find (g!"_d", .nil) [g!"_impl"] [.nil, .nil] := find_callable _ _ _ (by decide)
  have hcall : SyncCall demoTypes (syncPoolT find [.nil, .nil]) :=
    ⟨find, _, _, hc, (syncPool_call demoTypes hc).symm⟩
  have h1 : SyncExec demoTypes ⟨2, [.obj 0, .obj 1]⟩ [] ⟨⟨2, [.obj 0, .obj 1]⟩, [syncPoolT find [.nil, .nil]]⟩ :=
    Exec.call .start hcall
  have h2 := Exec.step (i := 0) (s' := ⟨2, [.obj 1]⟩) (e := ⟨.takeImpl, Val.obj 0⟩)
    (t' := (SyncLoc.inside (.obj 0) find [.nil, .nil]).tree) h1 rfl
    ⟨_, rfl, Tree.vis_congr (fun x => by cases x <;> rfl)⟩ ⟨_, rfl, rfl⟩
  have h3 := Exec.step (i := 0) (s' := ⟨2, [.obj 1]⟩) (e := ⟨.impl (.obj 0) find.name [.nil, .nil] find.results.length,
      Except.error (.obj 9)⟩) (t' := (SyncLoc.after (.obj 0) (.panic (.obj 9))).tree) h2 rfl ⟨_, rfl, rfl⟩ (by exact Eq.refl (⟨2, [.obj 1]⟩ : PoolState))
  have h4 := Exec.step (i := 0) (s' := ⟨2, [.obj 1, .obj 0]⟩) (e := ⟨.putImpl (.obj 0), ()⟩)
    (t' := .ret (.panic (.obj 9))) h3 rfl ⟨_, rfl, rfl⟩ ⟨by decide, rfl⟩
  exact ⟨_, _, h4, rfl, rfl⟩

end Gowrap.Props
