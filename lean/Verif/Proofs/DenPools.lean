import Verif.Proofs.GoDen
import Verif.Proofs.TmRobinpool
import Verif.Proofs.TmSyncpool
/-!
# The meaning of the code generated by templates/robinpool and syncpool
-/

namespace Gowrap.Tmpl

open Gowrap Go

set_option maxRecDepth 100000

/-- `_d.pool[_counter%_d.poolSize]` -/
abbrev poolE : Go.Expr := .index (fieldE g!"pool") (.bin g!"%" (.id g!"_counter") (fieldE g!"poolSize"))

def robinPoolStmts (m : Method) : List Stmt :=
  .define [.id g!"_counter"] [callE (dotE g!"atomic" g!"AddUint32") [.un g!"&" (fieldE g!"counter"), .num g!"1"]] :: passStmts poolE m

def syncPoolStmts (m : Method) : List Stmt :=
  .define [.id g!"_impl"] [.un g!"<-" (fieldE g!"pool")] :: deferS [.send (fieldE g!"pool") (.id g!"_impl")] :: passStmts (.id g!"_impl") m

theorem tmRobinpool_method (u : Uni) (d : Inputs) (m : Method) :
    tmRobinpool.methodDecls u d m =
      [.method g!"_d" (.ptr (.name (tmRobinpool.names u d).dec)) m.name (paramDecls m.params) (paramDecls m.results) (robinPoolStmts m)] := by
  obtain ⟨doc, cm, nm, ps, rs, re, ac⟩ := m
  cases ac <;> cases ps <;> cases re <;> cases rs <;> krfl

theorem tmSyncpool_method (u : Uni) (d : Inputs) (m : Method) :
    tmSyncpool.methodDecls u d m =
      [.method g!"_d" (.name (tmSyncpool.names u d).dec) m.name (paramDecls m.params) (paramDecls m.results) (syncPoolStmts m)] := by
  obtain ⟨doc, cm, nm, ps, rs, re, ac⟩ := m
  cases ac <;> cases ps <;> cases re <;> cases rs <;> krfl

/-- `pool[counter % poolSize]` -/
def pick (pool : List Val) (k : Val → Stm) : Stm :=
  .get g!"_counter" fun
    | .int c => if (UInt32.ofNat pool.length).toNat = 0 then fun env => .ret (env, .panic .nil)
      else match pool[(c % ((UInt32.ofNat pool.length).toNat : Int)).toNat]? with
        | some v => if 0 ≤ c % ((UInt32.ofNat pool.length).toNat : Int) then k v else fun env => .ret (env, .panic .nil)
        | none => fun env => .ret (env, .panic .nil)
    | _ => .stuck

theorem tmRobinpool_den (pool : List Val) (m : Method) (hp : Plain m.pnames) :
    denBody (robinPoolLink pool m) (robinPoolStmts m) = robinPool pool m := by
  unfold denBody robinPoolStmts robinPool
  have hi : (robinPoolLink pool m).impl poolE = true := by rfl
  have hr : ∀ k, ev (robinPoolLink pool m) poolE 1 k = pick pool fun v => k [v] := fun k => by
    go_simp [robinPoolLink, pick]
    congr 1
    funext v
    cases v <;> simp
    by_cases h : pool.length % 4294967296 = 0
    · rw [if_pos h, if_pos (by omega)]
    · rw [if_neg h, if_neg (by omega)]
      generalize (_ : Int) % ((pool.length : Int) % 4294967296) = j
      cases pool[j.toNat]? <;> rfl
  rw [den_cons, den_pass (base := pick pool) hi hr hp rfl]
  go_simp [robinPoolLink, numeral, pick]
  congr 1
  congr 1
  funext c
  congr 1
  have h0 : UInt32.ofNat pool.length = 0 ↔ pool.length % 4294967296 = 0 := by
    rw [← UInt32.toNat_inj]
    simp
  by_cases h : pool.length % 4294967296 = 0
  · rw [if_pos h, if_pos (h0.mpr h)]
  · rw [if_neg h, if_neg (mt h0.mp h)]
    have e : ((c.toNat : Int) % ((pool.length : Int) % 4294967296)) = ((c.toNat % (pool.length % 4294967296) : Nat) : Int) := by
      rw [Int.natCast_emod, Int.natCast_emod]
      rfl
    rw [e]
    simp only [Int.toNat_natCast, Int.natCast_nonneg, if_true]
    cases pool[c.toNat % (pool.length % 4294967296)]? <;> rfl

theorem tmSyncpool_den (m : Method) (hp : Plain m.pnames) :
    denBody (syncPoolLink m) (syncPoolStmts m) = syncPool m := by
  unfold denBody syncPoolStmts syncPool
  rw [den_cons, den_defer _ _ _ _ (by rfl), den_pass (base := Stm.get g!"_impl") (by rfl) (fun k => by go_simp [syncPoolLink]) hp rfl]
  go_simp [syncPoolLink, Expr.chan]

end Gowrap.Tmpl
