import Verif.Proofs.Act
import Verif.Spec.Cli
/-! The runs of the template loader. -/

namespace Gowrap

open Spec

/-- All runs of `get`. -/
inductive GetRun (n : Net) (url : Str) (h : List Ev) : Except Fail Bytes → List Ev → Prop
  | badUrl (e : CErr) : n.newRequest url = some e → GetRun n url h (.error (.error e)) []
  | noAnswer (e : CErr) : n.newRequest url = none → n.send (h ++ [.request url]) url = .error e →
      GetRun n url h (.error (.error e)) [.request url]
  | status (r : Resp) (e : CErr) : n.newRequest url = none → n.send (h ++ [.request url]) url = .ok r →
      r.status ≠ 200 → e = r.close.getD (.unexpectedStatus r.status) →
      GetRun n url h (.error (.error e)) [.request url, .response r.status, .closeBody]
  | closeFailed (r : Resp) (e : CErr) : n.newRequest url = none →
      n.send (h ++ [.request url]) url = .ok r → r.status = 200 → r.close = some e →
      GetRun n url h (.error (.error e)) [.request url, .response 200, .readBody, .closeBody]
  | readFailed (r : Resp) (e : CErr) : n.newRequest url = none →
      n.send (h ++ [.request url]) url = .ok r → r.status = 200 → r.close = none → r.body = .error e →
      GetRun n url h (.error (.error e)) [.request url, .response 200, .readBody, .closeBody]
  | done (r : Resp) (b : Bytes) : n.newRequest url = none →
      n.send (h ++ [.request url]) url = .ok r → r.status = 200 → r.close = none → r.body = .ok b →
      GetRun n url h (.ok b) [.request url, .response 200, .readBody, .closeBody]

theorem get_run (n : Net) (url : Str) (h : List Ev) :
    ∃ ev, (n.get url h).2 = h ++ ev ∧ GetRun n url h (n.get url h).1 ev := by
  unfold Net.get
  cases hn : n.newRequest url with
  | some e => exact ⟨[], by simp, .badUrl e hn⟩
  | none =>
    simp only [Act.run_emit_bind, Act.run_ask_bind]
    cases hs : n.send (h ++ [Ev.request url]) url with
    | error e => exact ⟨[.request url], by simp, .noAnswer e hn hs⟩
    | ok r =>
      simp only [Act.run_emit_bind]
      by_cases h2 : r.status = 200
      · rw [if_neg (by simp [h2])]
        rw [Act.run_bind]
        simp only [Act.run_emit_bind, Act.run_pure]
        cases hc : r.close with
        | some e =>
          exact ⟨[.request url, .response 200, .readBody, .closeBody], by simp [h2],
            .closeFailed r e hn hs h2 hc⟩
        | none =>
          cases hb : r.body with
          | error e =>
            exact ⟨[.request url, .response 200, .readBody, .closeBody], by simp [h2],
              .readFailed r e hn hs h2 hc hb⟩
          | ok b =>
            exact ⟨[.request url, .response 200, .readBody, .closeBody], by simp [h2],
              .done r b hn hs h2 hc hb⟩
      · rw [if_pos h2]
        simp only [Act.run_pure_bind, Act.run_emit_bind]
        cases hc : r.close with
        | some e =>
          exact ⟨[.request url, .response r.status, .closeBody], by simp,
            .status r e hn hs h2 (by simp [hc])⟩
        | none =>
          exact ⟨[.request url, .response r.status, .closeBody], by simp,
            .status r _ hn hs h2 (by simp [hc])⟩

theorem get_ok {n : Net} {url : Str} {h h' : List Ev} {b : Bytes} (hg : n.get url h = (.ok b, h')) :
    n.newRequest url = none ∧ ∃ r, n.send (h ++ [.request url]) url = .ok r ∧ r.status = 200 ∧
      r.close = none ∧ r.body = .ok b ∧
      h' = h ++ [.request url, .response 200, .readBody, .closeBody] := by
  obtain ⟨ev, h1, h2⟩ := get_run n url h
  rw [hg] at h1 h2
  simp only at h1 h2
  cases h2 with
  | done r b hn hs h2 hc hb => exact ⟨hn, r, hs, h2, hc, hb, h1⟩

/-- Every failure of `get` is an error value. -/
theorem get_error {n : Net} {url : Str} {h h' : List Ev} {f : Fail} (hg : n.get url h = (.error f, h')) :
    ∃ e ev, f = .error e ∧ h' = h ++ ev := by
  obtain ⟨ev, h1, h2⟩ := get_run n url h
  rw [hg] at h1 h2
  simp only at h1 h2
  cases h2 with
  | badUrl e _ => exact ⟨e, _, rfl, h1⟩
  | noAnswer e _ _ => exact ⟨e, _, rfl, h1⟩
  | status _ e _ _ _ _ => exact ⟨e, _, rfl, h1⟩
  | closeFailed _ e _ _ _ _ => exact ⟨e, _, rfl, h1⟩
  | readFailed _ e _ _ _ _ _ => exact ⟨e, _, rfl, h1⟩

theorem bodiesClosed_append : ∀ (a b : List Ev) (o : Bool), BodiesClosed o a → BodiesClosed false b →
    BodiesClosed o (a ++ b)
  | [], b, o, h, hb => by simp only [BodiesClosed] at h; subst h; simpa using hb
  | e :: a, b, o, h, hb => by
    cases e <;> simp only [List.cons_append, BodiesClosed] at h ⊢ <;>
      first
        | exact bodiesClosed_append a b _ h hb
        | exact ⟨h.1, bodiesClosed_append a b _ h.2 hb⟩

theorem get_extends (n : Net) (url : Str) : Act.Extends (BodiesClosed false) (n.get url) := fun h => by
  obtain ⟨ev, h1, h2⟩ := get_run n url h
  refine ⟨ev, h1, ?_⟩
  generalize (n.get url h).1 = r at h2
  cases h2 <;> simp [BodiesClosed]

theorem Extends.ite {α : Type} {P : List Ev → Prop} {c : Prop} [Decidable c] {x y : Act α}
    (hx : Act.Extends P x) (hy : Act.Extends P y) : Act.Extends P (if c then x else y) := by
  split <;> assumption

/-- What is needed of a property of events to hold for every run of the loader. -/
structure LoaderInv (P : List Ev → Prop) : Prop where
  nil : P []
  append : ∀ a b, P a → P b → P (a ++ b)
  get : ∀ (n : Net) url, Act.Extends P (n.get url)
  readFile : ∀ p, P [.readFile p]
  stat : ∀ p, P [.stat p]
  gitRoot : P [.gitRoot]

theorem LoaderInv.readLocal {P : List Ev → Prop} (I : LoaderInv P) (n : Net) (p : Str) :
    Act.Extends P (n.readLocal p) := by
  refine .bind I.append (.emit (I.readFile p)) fun _ => .bind I.append (.ask I.nil _) fun r => ?_
  cases r <;> first | exact .pure I.nil _ | exact .fail I.nil _

theorem LoaderInv.fetch {P : List Ev → Prop} (I : LoaderInv P) (n : Net) (p : Str) :
    Act.Extends P (n.fetchFromGithub p) := by
  refine .bind I.append (I.get n _) fun b => ?_
  split
  · exact .fail I.nil _
  · exact .fail I.nil _
  · exact .bind I.append (I.get n _) fun _ => .pure I.nil _

theorem LoaderInv.load {P : List Ev → Prop} (I : LoaderInv P) (n : Net) (p : Str) :
    Act.Extends P (n.load p) := by
  unfold Net.load
  split
  · exact .bind I.append (I.get n _) fun _ => .pure I.nil _
  · split
    · refine .bind I.append (.emit (I.stat _)) fun _ => .bind I.append (.ask I.nil _) fun m => ?_
      split
      · refine .bind I.append ?_ fun p => .bind I.append (I.readLocal n _) fun _ => .pure I.nil _
        refine .bind I.append (.emit I.gitRoot) fun _ => .bind I.append (.ask I.nil _) fun r => ?_
        cases r <;> first | exact .pure I.nil _ | exact .fail I.nil _
      · exact .bind I.append (I.readLocal n _) fun _ => .pure I.nil _
    · exact I.fetch n p

theorem LoaderInv.list {P : List Ev → Prop} (I : LoaderInv P) (n : Net) :
    Act.Extends P n.list := by
  refine .bind I.append (I.get n _) fun b => ?_
  split
  · exact .fail I.nil _
  · exact .pure I.nil _

theorem bodies_inv : LoaderInv (BodiesClosed false) where
  nil := rfl
  append := fun a b ha hb => bodiesClosed_append a b false ha hb
  get := get_extends
  readFile := by simp [BodiesClosed]
  stat := by simp [BodiesClosed]
  gitRoot := by simp [BodiesClosed]

/-- An event of the loader: nothing that changes files or prints. -/
def LoaderEvent : Ev → Prop
  | .readFile _ | .stat _ | .gitRoot | .request _ | .response _ | .readBody | .closeBody => True
  | _ => False

theorem loader_inv : LoaderInv (fun l => ∀ e ∈ l, LoaderEvent e) where
  nil := by simp
  append := by
    intro a b ha hb e he
    rcases List.mem_append.1 he with h | h
    · exact ha e h
    · exact hb e h
  get := fun n url h => by
    obtain ⟨ev, h1, h2⟩ := get_run n url h
    refine ⟨ev, h1, ?_⟩
    generalize (n.get url h).1 = r at h2
    cases h2 <;> simp [LoaderEvent]
  readFile := by simp [LoaderEvent]
  stat := by simp [LoaderEvent]
  gitRoot := by simp [LoaderEvent]

end Gowrap
