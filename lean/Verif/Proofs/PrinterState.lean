import Verif.Model.PrinterState
/-! The scratch buffer is always left empty -/

namespace Gowrap

/-- From an empty buffer the method leaves an empty buffer. -/
def PM.Clean (m : PM) : Prop := (m []).2 = []

theorem PM.Clean.resetting (m : PM) : (PM.resetting m).Clean := rfl

theorem printTypeM_clean (cfg : PrinterCfg) (e : Expr) : (printTypeM cfg e).Clean := by
  cases e <;> (simp only [printTypeM]; rfl)

theorem printNodeM_clean (cfg : PrinterCfg) (e : Option Expr) : (printNodeM cfg e).Clean := by
  cases e <;> rfl

theorem PrinterCall.run_clean (cfg : PrinterCfg) (c : PrinterCall) : (c.run cfg freshBuf).2 = freshBuf := by
  cases c with
  | print n => exact printNodeM_clean cfg n
  | printType n => exact printTypeM_clean cfg n

/-- A `Res` as a Go result. -/
def Res.toRet : Res Str → Ret
  | .ok s => .ret s none
  | .err e => .ret [] (some e)
  | .panic => .panic
  | .diverge => .panic

/-- A printer whose writer never fails. -/
def PrintEnv.cfg (env : PrintEnv) : PrinterCfg := ⟨env.uni, fun e => (env.raw e, none), env.types, env.pref⟩

theorem andThen_ok {m : PM} {s : Str} (h : m [] = (.ret s none, [])) (k : Str → PM) :
    m.andThen k [] = k s [] := by
  simp [PM.andThen, h]

theorem andThen_err {m : PM} {s : Str} {e} (h : m [] = (.ret s (some e), [])) (k : Str → PM) :
    m.andThen k [] = (.ret [] (some e), []) := by
  simp [PM.andThen, h]

theorem andThen_panic {m : PM} (h : m [] = (.panic, [])) (k : Str → PM) :
    m.andThen k [] = (.panic, []) := by
  simp [PM.andThen, h]

/-- `m` started with an empty buffer behaves like `r`. -/
def Refines (m : PM) (r : Res Str) : Prop := m [] = (r.toRet, [])

theorem Refines.andThen {m : PM} {r : Res Str} (h : Refines m r) {k : Str → PM} {k' : Str → Res Str}
    (hk : ∀ s, Refines (k s) (k' s)) : Refines (m.andThen k) (r >>= k') := by
  unfold Refines at *
  cases r with
  | ok s => rw [andThen_ok h, hk s]; rfl
  | err e => rw [andThen_err h]; rfl
  | panic => rw [andThen_panic h]; rfl
  | diverge => rw [andThen_panic h]; rfl

theorem Refines.pure (s : Str) : Refines (PM.pure s) (.ok s) := rfl

theorem Refines.resetting {m : PM} {r : Res Str} (h : Refines m r) : Refines (PM.resetting m) r := by
  unfold Refines at *
  simp [PM.resetting, h]

theorem Refines.leaf (env : PrintEnv) (e : Expr) :
    Refines (PM.resetting (fprintBuf env.cfg e)) (.ok (env.raw e)) := by
  simp [Refines, PM.resetting, fprintBuf, PrintEnv.cfg, Res.toRet]

theorem bind_assoc' {α β γ} (x : Res α) (f : α → Res β) (g : β → Res γ) :
    ((x >>= f) >>= g) = (x >>= fun a => f a >>= g) := by
  cases x <;> rfl

mutual
theorem printTypeM_refines (env : PrintEnv) : ∀ e : Expr, Refines (printTypeM env.cfg e) (printType env e)
  | .funcT ps rs => by
    simp only [printTypeM, printType]
    refine Refines.resetting ?_
    refine printFieldsM_refines env ps _ _ fun ps => ?_
    exact printResultsM_refines env rs _ _ fun rs => Refines.pure _
  | .star x => by
    simp only [printTypeM, printType]
    exact ((printTypeM_refines env x).andThen fun s => Refines.pure _).resetting
  | .ellipsis x => by
    simp only [printTypeM, printType]
    exact ((printTypeM_refines env x).andThen fun s => Refines.pure _).resetting
  | .chanT d x => by
    simp only [printTypeM, printType]
    exact ((printTypeM_refines env x).andThen fun s => Refines.pure _).resetting
  | .array l x => by
    simp only [printTypeM, printType]
    refine ((printTypeM_refines env x).andThen fun s => ?_).resetting
    have h : Refines (printNodeM env.cfg l) (.ok (printRaw env l)) := by
      cases l with
      | none => rfl
      | some e => exact Refines.leaf env e
    exact h.andThen fun l => Refines.pure _
  | .mapT k v => by
    simp only [printTypeM, printType]
    exact ((printTypeM_refines env k).andThen fun k => (printTypeM_refines env v).andThen fun s => Refines.pure _).resetting
  | .structT fs => by
    simp only [printTypeM, printType]
    exact Refines.resetting (printFieldsM_refines env fs _ _ fun fs => Refines.pure _)
  | .ident n => by
    simp only [printTypeM, printType, printIdentM, printIdent]
    by_cases h1 : env.types.contains n = true
    · rw [if_pos (show env.cfg.types.contains n = true from h1), if_pos h1]
      by_cases h2 : env.pref.length > 0
      · rw [if_pos (show env.cfg.pref.length > 0 from h2), if_pos h2, show env.cfg.uni = env.uni from rfl]
        cases h3 : env.uni.looksUnexported n with
        | none => rfl
        | some b => cases b <;> rfl
      · rw [if_neg (show ¬ env.cfg.pref.length > 0 from h2), if_neg h2]; rfl
    · rw [if_neg (show ¬ env.cfg.types.contains n = true from h1), if_neg h1]
      exact Refines.leaf env (.ident n)
  | .index x i => by
    simp only [printTypeM, printType]
    exact ((printTypeM_refines env x).andThen fun k => (printTypeM_refines env i).andThen fun s => Refines.pure _).resetting
  | .indexList x is => by
    rw [printTypeM, printType]
    exact ((printTypeM_refines env x).andThen fun k => printIndicesM_refines env is _).resetting
  | .selector x s => by simp only [printTypeM, printType]; exact Refines.leaf env _
  | .sliceExpr x => by simp only [printTypeM, printType]; exact Refines.leaf env _
  | .ifaceT ms => by simp only [printTypeM, printType]; exact Refines.leaf env _
  | .paren x => by simp only [printTypeM, printType]; exact Refines.leaf env _
  | .lit t => by simp only [printTypeM, printType]; exact Refines.leaf env _
  | .unary o x => by simp only [printTypeM, printType]; exact Refines.leaf env _
  | .binary o x y => by simp only [printTypeM, printType]; exact Refines.leaf env _
  | .other t => by simp only [printTypeM, printType]; exact Refines.leaf env _
theorem printIndicesM_refines (env : PrintEnv) : ∀ (es : List Expr) (b : Str),
    Refines (printIndicesM env.cfg b es) (printIndices env b es)
  | [], b => by simp only [printIndicesM, printIndices]; rfl
  | e :: es, b => by
    simp only [printIndicesM, printIndices]
    refine (printTypeM_refines env e).andThen fun s => ?_
    split
    · exact printIndicesM_refines env es _
    · exact printIndicesM_refines env es _
theorem printFieldM_refines (env : PrintEnv) : ∀ (f : Field) (k : Str → PM) (k' : Str → Res Str),
    (∀ s, Refines (k s) (k' s)) → Refines (printFieldM env.cfg f k) (printField env f >>= k')
  | .mk _ _ names t _, k, k', h => by
    simp only [printFieldM, printField, bind_assoc']
    exact (printTypeM_refines env t).andThen fun s => h _
theorem printFieldsM_refines (env : PrintEnv) : ∀ (fs : List Field) (k : List Str → PM) (k' : List Str → Res Str),
    (∀ s, Refines (k s) (k' s)) → Refines (printFieldsM env.cfg fs k) (printFields env fs >>= k')
  | [], k, k', h => by simp only [printFieldsM, printFields]; exact h []
  | f :: fs, k, k', h => by
    simp only [printFieldsM, printFields, bind_assoc']
    exact printFieldM_refines env f _ _ fun s => printFieldsM_refines env fs _ _ fun rest => h _
theorem printResultsM_refines (env : PrintEnv) : ∀ (fs : Option (List Field)) (k : List Str → PM)
    (k' : List Str → Res Str), (∀ s, Refines (k s) (k' s)) →
    Refines (printResultsM env.cfg fs k) (printResults env fs >>= k')
  | none, k, k', h => by simp only [printResultsM, printResults]; exact h []
  | some fs, k, k', h => by simp only [printResultsM, printResults]; exact printFieldsM_refines env fs k k' h
end

end Gowrap
