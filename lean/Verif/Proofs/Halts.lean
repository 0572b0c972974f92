import Verif.Proofs.TypesSafe
import Verif.Spec.Termination
/-!
# Termination of the functions called during discovery
-/

namespace Gowrap

open Gowrap.Spec

/-- The function returns (possibly with an error or a panic). -/
def Res.Halts {α : Type} (r : Res α) : Prop := r ≠ .diverge

theorem Res.Halts.bind {α β : Type} {x : Res α} {f : α → Res β} (hx : x.Halts) (hf : ∀ a, (f a).Halts) :
    (x >>= f).Halts := by
  cases x with
  | ok a => exact hf a
  | err e => intro h; cases h
  | panic => intro h; cases h
  | diverge => exact absurd rfl hx

theorem halts_ok {α : Type} (a : α) : (Res.ok a).Halts := by intro h; cases h
theorem halts_pure {α : Type} (a : α) : (pure a : Res α).Halts := by intro h; cases h
theorem halts_err {α : Type} (e : Err) : (Res.err e : Res α).Halts := by intro h; cases h
theorem halts_panic {α : Type} : (Res.panic : Res α).Halts := by intro h; cases h

theorem printIdent_halts (env : PrintEnv) (n : Str) : (printIdent env n).Halts := by
  unfold printIdent
  repeat' split
  all_goals first | exact halts_ok _ | exact halts_err _ | exact halts_panic | exact halts_pure _

mutual
theorem printType_halts (env : PrintEnv) : ∀ e : Expr, (printType env e).Halts
  | .ident n => by simp only [printType]; exact printIdent_halts env n
  | .selector x b => by simp only [printType]; exact halts_ok _
  | .star x => by
    simp only [printType]; exact (printType_halts env x).bind fun _ => halts_pure _
  | .ellipsis x => by
    simp only [printType]; exact (printType_halts env x).bind fun _ => halts_pure _
  | .array l x => by
    simp only [printType]; exact (printType_halts env x).bind fun _ => halts_pure _
  | .mapT k v => by
    simp only [printType]
    exact (printType_halts env k).bind fun _ => (printType_halts env v).bind fun _ => halts_pure _
  | .chanT d x => by
    simp only [printType]; exact (printType_halts env x).bind fun _ => halts_pure _
  | .funcT ps rs => by
    simp only [printType]
    exact (printFields_halts env ps).bind fun _ => (printResults_halts env rs).bind fun _ => halts_pure _
  | .structT fs => by
    simp only [printType]; exact (printFields_halts env fs).bind fun _ => halts_pure _
  | .index x i => by
    simp only [printType]
    exact (printType_halts env x).bind fun _ => (printType_halts env i).bind fun _ => halts_pure _
  | .indexList x is => by
    rw [printType]
    exact (printType_halts env x).bind fun _ => printIndices_halts env is _
  | .ifaceT ms => by simp only [printType]; exact halts_ok _
  | .paren x => by simp only [printType]; exact halts_ok _
  | .sliceExpr _ => by simp only [printType]; exact halts_ok _
  | .lit _ => by simp only [printType]; exact halts_ok _
  | .unary _ _ => by simp only [printType]; exact halts_ok _
  | .binary _ _ _ => by simp only [printType]; exact halts_ok _
  | .other _ => by simp only [printType]; exact halts_ok _
theorem printIndices_halts (env : PrintEnv) : ∀ (es : List Expr) (b : Str), (printIndices env b es).Halts
  | [], b => by simp only [printIndices]; exact halts_ok _
  | e :: es, b => by
    simp only [printIndices]
    refine (printType_halts env e).bind fun _ => ?_
    split
    · exact printIndices_halts env es _
    · exact printIndices_halts env es _
theorem printField_halts (env : PrintEnv) : ∀ f : Field, (printField env f).Halts
  | .mk _ _ names t _ => by
    simp only [printField]; exact (printType_halts env t).bind fun _ => halts_pure _
theorem printFields_halts (env : PrintEnv) : ∀ fs : List Field, (printFields env fs).Halts
  | [] => by simp only [printFields]; exact halts_ok _
  | f :: fs => by
    simp only [printFields]
    exact (printField_halts env f).bind fun _ => (printFields_halts env fs).bind fun _ => halts_pure _
theorem printResults_halts (env : PrintEnv) : ∀ fs : Option (List Field), (printResults env fs).Halts
  | none => by simp only [printResults]; exact halts_ok _
  | some fs => by simp only [printResults]; exact printFields_halts env fs
end

theorem typePrefix_halts (u : Uni) (e : Expr) : (typePrefix u e).Halts := by
  induction e using typePrefix.induct <;> simp only [typePrefix, lowerFirstByte] <;>
    repeat' split
  all_goals first
    | exact halts_ok _ | exact halts_err _ | exact halts_panic | exact halts_pure _ | skip
  all_goals (refine Res.Halts.bind ?_ fun _ => ?_ <;> first | assumption | exact halts_pure _ | exact halts_ok _)

theorem newParam_halts (env : SigEnv) (name : Str) (fi : Field) (used : List Str) :
    (newParam env name fi used).Halts := by
  unfold newParam
  refine Res.Halts.bind ?_ fun _ => (printType_halts _ _).bind fun _ => halts_pure _
  unfold chooseName
  split
  · exact (typePrefix_halts _ _).bind fun _ => (genName_safe _ _ _).2
  · exact halts_ok _

theorem makeNames_halts (env : SigEnv) (fi : Field) : ∀ (ns used : List Str), (makeNames env fi ns used).Halts
  | [], _ => halts_ok _
  | n :: ns, used => by
    simp only [makeNames]
    exact (newParam_halts _ _ _ _).bind fun _ => (makeNames_halts env fi ns _).bind fun _ => halts_pure _

theorem makeParams_halts (env : SigEnv) : ∀ (fs : List Field) (used : List Str), (makeParams env fs used).Halts
  | [], _ => halts_ok _
  | f :: fs, used => by
    simp only [makeParams, makeField]
    refine Res.Halts.bind ?_ fun _ => (makeParams_halts env fs _).bind fun _ => halts_pure _
    split <;> exact makeNames_halts _ _ _ _

theorem renameLast_halts (n : Str) : ∀ ps : List Param, (renameLast n ps).Halts
  | [] => halts_panic
  | [p] => halts_ok _
  | p :: q :: ps => by
    simp only [renameLast]
    exact (renameLast_halts n (q :: ps)).bind fun _ => halts_pure _

theorem newMethod_halts (env : SigEnv) (name : Str) (fi : Field) : (newMethod env name fi).Halts := by
  unfold newMethod
  split
  · next ps rs _ =>
    refine Res.Halts.bind ?_ fun _ => (makeParams_halts _ _ _).bind fun _ => ?_
    · unfold scanResults
      repeat' split
      all_goals first | exact halts_ok _ | exact halts_panic
    · refine Res.Halts.bind ?_ fun _ => Res.Halts.bind ?_ fun _ => Res.Halts.bind ?_ fun _ => halts_pure _
      · cases rs with
        | none => exact halts_ok _
        | some rs => exact makeParams_halts _ _ _
      · unfold nameError
        split
        · exact renameLast_halts _ _
        · exact halts_ok _
      · unfold nameContext renameFirst
        repeat' split
        all_goals first | exact halts_ok _ | exact halts_panic
  · exact halts_err _

theorem parseGenericType_halts (types : List Str) (pref : Str) (e : Expr) : (parseGenericType types pref e).Halts := by
  induction e using parseGenericType.induct <;> simp only [parseGenericType, if_true] <;> repeat' split
  all_goals first
    | exact halts_ok _ | exact halts_err _ | exact halts_panic | exact halts_pure _ | skip
  all_goals simp_all
  all_goals first
    | exact halts_ok _ | exact halts_err _ | exact halts_panic | exact halts_pure _ | skip
  next ih1 ih2 => exact ih1.bind fun _ => ih2.bind fun _ => halts_pure _

theorem buildGenericTypes_halts (ts : TypeSpec) (types : List Str) (pref : Str) :
    (buildGenericTypesFromSpec ts types pref).Halts := by
  have hf : ∀ fs, (genericTypesFromFields types pref fs).Halts := by
    intro fs
    induction fs with
    | nil => exact halts_ok _
    | cons f fs ih =>
      simp only [genericTypesFromFields]
      exact (parseGenericType_halts _ _ _).bind fun _ => ih.bind fun _ => halts_pure _
  unfold buildGenericTypesFromSpec
  split
  · exact halts_ok _
  · exact hf _

theorem findEmbedded_halts (types : List TypeSpec) (n : Str) (b : Bool) : (findEmbedded types n b).Halts := by
  unfold findEmbedded
  repeat' split
  all_goals first | exact halts_ok _ | exact halts_err _

theorem findImport_halts (w : World) (n : Str) (imports : List ImportSpec) (l : List (Str × PkgId)) :
    (findImportPathForName w n imports l).Halts := by
  unfold findImportPathForName unquote
  repeat' split
  all_goals first | exact halts_ok _ | exact halts_err _ | exact halts_panic | (dsimp only; split <;> first | exact halts_ok _ | exact halts_panic)

end Gowrap
