import Verif.Spec.TreeMaps
/-!
# Changing leaves: laws
-/
namespace Fajt

/-- Repeat a function. -/
def times {α : Type} (f : α → α) : Nat → α → α
  | 0, x => x
  | n + 1, x => f (times f n x)

theorem times_add {α : Type} (f : α → α) (i j : Nat) (x : α) : times f j (times f i x) = times f (i + j) x := by
  induction j with
  | zero => rfl
  | succ j ih => exact congrArg f ih

/-- A change of leaves, repeated. -/
def LeafMap.pow (m : LeafMap) (n : Nat) : LeafMap where
  ident := times m.ident n
  string := times m.string n
  number := times m.number n
  binaryOp := times m.binaryOp n
  logicalOp := times m.logicalOp n
  assignOp := times m.assignOp n
  unaryOp := times m.unaryOp n
  updateOp := times m.updateOp n

theorem LeafMap.pow_twice (m : LeafMap) (i : Nat) : (m.pow i).twice = m.pow (i + i) := by
  simp only [LeafMap.twice, LeafMap.pow, times_add]

theorem LeafMap.pow_one (m : LeafMap) : m.pow 1 = m := rfl
theorem LeafMap.pow_two (m : LeafMap) : m.pow (1 + 1) = m.twice := rfl

theorem pow_ident (m : LeafMap) (i j : Nat) (x) : (m.pow j).ident ((m.pow i).ident x) = (m.pow (i + j)).ident x := times_add _ _ _ _
theorem pow_string (m : LeafMap) (i j : Nat) (x) : (m.pow j).string ((m.pow i).string x) = (m.pow (i + j)).string x := times_add _ _ _ _
theorem pow_number (m : LeafMap) (i j : Nat) (x) : (m.pow j).number ((m.pow i).number x) = (m.pow (i + j)).number x := times_add _ _ _ _
theorem pow_binaryOp (m : LeafMap) (i j : Nat) (x) : (m.pow j).binaryOp ((m.pow i).binaryOp x) = (m.pow (i + j)).binaryOp x := times_add _ _ _ _
theorem pow_logicalOp (m : LeafMap) (i j : Nat) (x) : (m.pow j).logicalOp ((m.pow i).logicalOp x) = (m.pow (i + j)).logicalOp x := times_add _ _ _ _
theorem pow_assignOp (m : LeafMap) (i j : Nat) (x) : (m.pow j).assignOp ((m.pow i).assignOp x) = (m.pow (i + j)).assignOp x := times_add _ _ _ _
theorem pow_unaryOp (m : LeafMap) (i j : Nat) (x) : (m.pow j).unaryOp ((m.pow i).unaryOp x) = (m.pow (i + j)).unaryOp x := times_add _ _ _ _
theorem pow_updateOp (m : LeafMap) (i j : Nat) (x) : (m.pow j).updateOp ((m.pow i).updateOp x) = (m.pow (i + j)).updateOp x := times_add _ _ _ _
theorem pow_optIdent (m : LeafMap) (i j : Nat) (x : Option Ident) :
    (x.map (fun y => (m.pow i).ident y)).map (fun y => (m.pow j).ident y) = x.map (fun y => (m.pow (i + j)).ident y) := by
  cases x with
  | none => rfl
  | some x => exact congrArg some (pow_ident m i j x)
theorem pow_optString (m : LeafMap) (i j : Nat) (x : Option LitString) :
    (x.map (fun y => (m.pow i).string y)).map (fun y => (m.pow j).string y) = x.map (fun y => (m.pow (i + j)).string y) := by
  cases x with
  | none => rfl
  | some x => exact congrArg some (pow_string m i j x)
theorem pow_strings (m : LeafMap) (i j : Nat) (x : List LitString) :
    (x.map (fun y => (m.pow i).string y)).map (fun y => (m.pow j).string y) = x.map (fun y => (m.pow (i + j)).string y) := by
  rw [List.map_map]
  exact List.map_congr_left fun x _ => pow_string m i j x
theorem NamedImport.reach_reach (m : LeafMap) (i j : Nat) (x : NamedImport) :
    (x.mapReached (m.pow i)).mapReached (m.pow j) = x.mapReached (m.pow (i + j)) := by
  cases x
  simp only [NamedImport.mapReached, NamedImport.mapLeaves, pow_ident, NamedImport.mk.injEq, true_and]
  exact pow_optIdent m i j _
theorem NamedExport.reach_reach (m : LeafMap) (i j : Nat) (x : NamedExport) :
    (x.mapReached (m.pow i)).mapReached (m.pow j) = x.mapReached (m.pow (i + j)) := by
  cases x
  simp only [NamedExport.mapReached, NamedExport.mapLeaves, pow_ident, NamedExport.mk.injEq, true_and]
  exact pow_optIdent m i j _
theorem pow_imports (m : LeafMap) (i j : Nat) (x : Option (List NamedImport)) :
    (x.map (fun y => y.map (fun y => y.mapReached (m.pow i)))).map (fun y => y.map (fun y => y.mapReached (m.pow j))) =
      x.map (fun y => y.map (fun y => y.mapReached (m.pow (i + j)))) := by
  cases x with
  | none => rfl
  | some x =>
    simp only [Option.map_some, Option.some.injEq, List.map_map]
    exact List.map_congr_left fun x _ => NamedImport.reach_reach m i j x
theorem pow_exports (m : LeafMap) (i j : Nat) (x : List NamedExport) :
    (x.map (fun y => y.mapReached (m.pow i))).map (fun y => y.mapReached (m.pow j)) = x.map (fun y => y.mapReached (m.pow (i + j))) := by
  rw [List.map_map]
  exact List.map_congr_left fun x _ => NamedExport.reach_reach m i j x

set_option linter.unusedSimpArgs false

mutual
theorem Expr.reach_reach (m : LeafMap) : ∀ (x : Expr) (i j : Nat), (x.mapReached (m.pow i)).mapReached (m.pow j) = x.mapReached (m.pow (i + j))
  | .arrow x1 x2 x3 x4 x5, i, j => by
    simp only [Expr.mapReached, pow_ident, pow_string, pow_number, pow_binaryOp, pow_logicalOp, pow_assignOp, pow_unaryOp, pow_updateOp, pow_optIdent, pow_optString, pow_strings, pow_exports, FormalParams.reach_reach m x4 i j, ArrowBody.reach_reach m x5 i j]
  | .assign x1 x2 x3 x4, i, j => by
    simp only [Expr.mapReached, pow_ident, pow_string, pow_number, pow_binaryOp, pow_logicalOp, pow_assignOp, pow_unaryOp, pow_updateOp, pow_optIdent, pow_optString, pow_strings, pow_exports, PatternOrExpr.reach_reach m x3 i j, Expr.reach_reach m x4 i j]
  | .await x1 x2, i, j => by
    simp only [Expr.mapReached, pow_ident, pow_string, pow_number, pow_binaryOp, pow_logicalOp, pow_assignOp, pow_unaryOp, pow_updateOp, pow_optIdent, pow_optString, pow_strings, pow_exports, Expr.reach_reach m x2 i j]
  | .binary x1 x2 x3 x4, i, j => by
    simp only [Expr.mapReached, pow_ident, pow_string, pow_number, pow_binaryOp, pow_logicalOp, pow_assignOp, pow_unaryOp, pow_updateOp, pow_optIdent, pow_optString, pow_strings, pow_exports, Expr.reach_reach m x3 i j, Expr.reach_reach m x4 i j]
  | .call x1 x2 x3 x4, i, j => by
    simp only [Expr.mapReached, pow_ident, pow_string, pow_number, pow_binaryOp, pow_logicalOp, pow_assignOp, pow_unaryOp, pow_updateOp, pow_optIdent, pow_optString, pow_strings, pow_exports, Callee.reach_reach m x2 i j, reach_reachArguments m x4 i j]
  | .classE x1 x2 x3 x4, i, j => by
    simp only [Expr.mapReached, pow_ident, pow_string, pow_number, pow_binaryOp, pow_logicalOp, pow_assignOp, pow_unaryOp, pow_updateOp, pow_optIdent, pow_optString, pow_strings, pow_exports, reach_reachOptExpr m x3 i j, reach_reachMethodDefs m x4 i j]
  | .conditional x1 x2 x3 x4, i, j => by
    simp only [Expr.mapReached, LeafMap.pow_twice, Expr.reach_reach m x2 (i + i) (j + j), Expr.reach_reach m x3 i j,
      show i + i + (j + j) = i + j + (i + j) by omega]
  | .function x1 x2 x3 x4 x5 x6, i, j => by
    simp only [Expr.mapReached, pow_ident, pow_string, pow_number, pow_binaryOp, pow_logicalOp, pow_assignOp, pow_unaryOp, pow_updateOp, pow_optIdent, pow_optString, pow_strings, pow_exports, FormalParams.reach_reach m x5 i j, Body.reach_reach m x6 i j]
  | .ident x1, i, j => by
    simp only [Expr.mapReached, pow_ident, pow_string, pow_number, pow_binaryOp, pow_logicalOp, pow_assignOp, pow_unaryOp, pow_updateOp, pow_optIdent, pow_optString, pow_strings, pow_exports]
  | .literal x1 x2, i, j => by
    simp only [Expr.mapReached, pow_ident, pow_string, pow_number, pow_binaryOp, pow_logicalOp, pow_assignOp, pow_unaryOp, pow_updateOp, pow_optIdent, pow_optString, pow_strings, pow_exports, Literal.reach_reach m x2 i j]
  | .logical x1 x2 x3 x4, i, j => by
    simp only [Expr.mapReached, pow_ident, pow_string, pow_number, pow_binaryOp, pow_logicalOp, pow_assignOp, pow_unaryOp, pow_updateOp, pow_optIdent, pow_optString, pow_strings, pow_exports, Expr.reach_reach m x3 i j, Expr.reach_reach m x4 i j]
  | .member x1 x2 x3, i, j => by
    simp only [Expr.mapReached, pow_ident, pow_string, pow_number, pow_binaryOp, pow_logicalOp, pow_assignOp, pow_unaryOp, pow_updateOp, pow_optIdent, pow_optString, pow_strings, pow_exports, MemberObject.reach_reach m x2 i j, MemberProp.reach_reach m x3 i j]
  | .metaProp x1 x2 x3, i, j => by
    simp only [Expr.mapReached, pow_ident, pow_string, pow_number, pow_binaryOp, pow_logicalOp, pow_assignOp, pow_unaryOp, pow_updateOp, pow_optIdent, pow_optString, pow_strings, pow_exports]
  | .new x1 x2 x3 x4, i, j => by
    simp only [Expr.mapReached, pow_ident, pow_string, pow_number, pow_binaryOp, pow_logicalOp, pow_assignOp, pow_unaryOp, pow_updateOp, pow_optIdent, pow_optString, pow_strings, pow_exports, Expr.reach_reach m x2 i j, reach_reachArguments m x4 i j]
  | .optCall x1 x2 x3 x4 x5, i, j => by
    simp only [Expr.mapReached, pow_ident, pow_string, pow_number, pow_binaryOp, pow_logicalOp, pow_assignOp, pow_unaryOp, pow_updateOp, pow_optIdent, pow_optString, pow_strings, pow_exports, Expr.reach_reach m x2 i j, reach_reachArguments m x4 i j]
  | .optMember x1 x2 x3 x4, i, j => by
    simp only [Expr.mapReached, pow_ident, pow_string, pow_number, pow_binaryOp, pow_logicalOp, pow_assignOp, pow_unaryOp, pow_updateOp, pow_optIdent, pow_optString, pow_strings, pow_exports, Expr.reach_reach m x2 i j, MemberProp.reach_reach m x3 i j]
  | .paren x1 x2, i, j => by
    simp only [Expr.mapReached, pow_ident, pow_string, pow_number, pow_binaryOp, pow_logicalOp, pow_assignOp, pow_unaryOp, pow_updateOp, pow_optIdent, pow_optString, pow_strings, pow_exports, Expr.reach_reach m x2 i j]
  | .sequence x1 x2, i, j => by
    simp only [Expr.mapReached, pow_ident, pow_string, pow_number, pow_binaryOp, pow_logicalOp, pow_assignOp, pow_unaryOp, pow_updateOp, pow_optIdent, pow_optString, pow_strings, pow_exports, reach_reachExprs m x2 i j]
  | .tagged x1 x2 x3, i, j => by
    simp only [Expr.mapReached, pow_ident, pow_string, pow_number, pow_binaryOp, pow_logicalOp, pow_assignOp, pow_unaryOp, pow_updateOp, pow_optIdent, pow_optString, pow_strings, pow_exports, Expr.reach_reach m x2 i j, reach_reachTemplateParts m x3 i j]
  | .this x1, i, j => by
    simp only [Expr.mapReached, pow_ident, pow_string, pow_number, pow_binaryOp, pow_logicalOp, pow_assignOp, pow_unaryOp, pow_updateOp, pow_optIdent, pow_optString, pow_strings, pow_exports]
  | .unary x1 x2 x3, i, j => by
    simp only [Expr.mapReached, pow_ident, pow_string, pow_number, pow_binaryOp, pow_logicalOp, pow_assignOp, pow_unaryOp, pow_updateOp, pow_optIdent, pow_optString, pow_strings, pow_exports, Expr.reach_reach m x3 i j]
  | .update x1 x2 x3 x4, i, j => by
    simp only [Expr.mapReached, pow_ident, pow_string, pow_number, pow_binaryOp, pow_logicalOp, pow_assignOp, pow_unaryOp, pow_updateOp, pow_optIdent, pow_optString, pow_strings, pow_exports, Expr.reach_reach m x4 i j]
  | .yield x1 x2 x3, i, j => by
    simp only [Expr.mapReached, pow_ident, pow_string, pow_number, pow_binaryOp, pow_logicalOp, pow_assignOp, pow_unaryOp, pow_updateOp, pow_optIdent, pow_optString, pow_strings, pow_exports, reach_reachOptExpr m x2 i j]
termination_by structural x => x
theorem Literal.reach_reach (m : LeafMap) : ∀ (x : Literal) (i j : Nat), (x.mapReached (m.pow i)).mapReached (m.pow j) = x.mapReached (m.pow (i + j))
  | .null, i, j => by
    simp only [Literal.mapReached, pow_ident, pow_string, pow_number, pow_binaryOp, pow_logicalOp, pow_assignOp, pow_unaryOp, pow_updateOp, pow_optIdent, pow_optString, pow_strings, pow_exports]
  | .boolean x1, i, j => by
    simp only [Literal.mapReached, pow_ident, pow_string, pow_number, pow_binaryOp, pow_logicalOp, pow_assignOp, pow_unaryOp, pow_updateOp, pow_optIdent, pow_optString, pow_strings, pow_exports]
  | .string x1, i, j => by
    simp only [Literal.mapReached, pow_ident, pow_string, pow_number, pow_binaryOp, pow_logicalOp, pow_assignOp, pow_unaryOp, pow_updateOp, pow_optIdent, pow_optString, pow_strings, pow_exports]
  | .number x1, i, j => by
    simp only [Literal.mapReached, pow_ident, pow_string, pow_number, pow_binaryOp, pow_logicalOp, pow_assignOp, pow_unaryOp, pow_updateOp, pow_optIdent, pow_optString, pow_strings, pow_exports]
  | .array x1, i, j => by
    simp only [Literal.mapReached, pow_ident, pow_string, pow_number, pow_binaryOp, pow_logicalOp, pow_assignOp, pow_unaryOp, pow_updateOp, pow_optIdent, pow_optString, pow_strings, pow_exports, reach_reachArrayElements m x1 i j]
  | .object x1, i, j => by
    simp only [Literal.mapReached, pow_ident, pow_string, pow_number, pow_binaryOp, pow_logicalOp, pow_assignOp, pow_unaryOp, pow_updateOp, pow_optIdent, pow_optString, pow_strings, pow_exports, reach_reachPropDefs m x1 i j]
  | .regexp x1, i, j => by
    simp only [Literal.mapReached, pow_ident, pow_string, pow_number, pow_binaryOp, pow_logicalOp, pow_assignOp, pow_unaryOp, pow_updateOp, pow_optIdent, pow_optString, pow_strings, pow_exports]
  | .template x1, i, j => by
    simp only [Literal.mapReached, pow_ident, pow_string, pow_number, pow_binaryOp, pow_logicalOp, pow_assignOp, pow_unaryOp, pow_updateOp, pow_optIdent, pow_optString, pow_strings, pow_exports, reach_reachTemplateParts m x1 i j]
termination_by structural x => x
theorem TemplatePart.reach_reach (m : LeafMap) : ∀ (x : TemplatePart) (i j : Nat), (x.mapReached (m.pow i)).mapReached (m.pow j) = x.mapReached (m.pow (i + j))
  | .string x1, i, j => by
    simp only [TemplatePart.mapReached, pow_ident, pow_string, pow_number, pow_binaryOp, pow_logicalOp, pow_assignOp, pow_unaryOp, pow_updateOp, pow_optIdent, pow_optString, pow_strings, pow_exports]
  | .expr x1, i, j => by
    simp only [TemplatePart.mapReached, pow_ident, pow_string, pow_number, pow_binaryOp, pow_logicalOp, pow_assignOp, pow_unaryOp, pow_updateOp, pow_optIdent, pow_optString, pow_strings, pow_exports, Expr.reach_reach m x1 i j]
termination_by structural x => x
theorem ArrayElement.reach_reach (m : LeafMap) : ∀ (x : ArrayElement) (i j : Nat), (x.mapReached (m.pow i)).mapReached (m.pow j) = x.mapReached (m.pow (i + j))
  | .elision, i, j => by
    simp only [ArrayElement.mapReached, pow_ident, pow_string, pow_number, pow_binaryOp, pow_logicalOp, pow_assignOp, pow_unaryOp, pow_updateOp, pow_optIdent, pow_optString, pow_strings, pow_exports]
  | .expr x1, i, j => by
    simp only [ArrayElement.mapReached, pow_ident, pow_string, pow_number, pow_binaryOp, pow_logicalOp, pow_assignOp, pow_unaryOp, pow_updateOp, pow_optIdent, pow_optString, pow_strings, pow_exports, Expr.reach_reach m x1 i j]
  | .spread x1, i, j => by
    simp only [ArrayElement.mapReached, pow_ident, pow_string, pow_number, pow_binaryOp, pow_logicalOp, pow_assignOp, pow_unaryOp, pow_updateOp, pow_optIdent, pow_optString, pow_strings, pow_exports, Expr.reach_reach m x1 i j]
termination_by structural x => x
theorem PropDef.reach_reach (m : LeafMap) : ∀ (x : PropDef) (i j : Nat), (x.mapReached (m.pow i)).mapReached (m.pow j) = x.mapReached (m.pow (i + j))
  | .identRef x1, i, j => by
    simp only [PropDef.mapReached, pow_ident, pow_string, pow_number, pow_binaryOp, pow_logicalOp, pow_assignOp, pow_unaryOp, pow_updateOp, pow_optIdent, pow_optString, pow_strings, pow_exports]
  | .spread x1, i, j => by
    simp only [PropDef.mapReached, pow_ident, pow_string, pow_number, pow_binaryOp, pow_logicalOp, pow_assignOp, pow_unaryOp, pow_updateOp, pow_optIdent, pow_optString, pow_strings, pow_exports, Expr.reach_reach m x1 i j]
  | .named x1 x2 x3, i, j => by
    simp only [PropDef.mapReached, pow_ident, pow_string, pow_number, pow_binaryOp, pow_logicalOp, pow_assignOp, pow_unaryOp, pow_updateOp, pow_optIdent, pow_optString, pow_strings, pow_exports, PropName.reach_reach m x2 i j, Expr.reach_reach m x3 i j]
  | .method x1, i, j => by
    simp only [PropDef.mapReached, pow_ident, pow_string, pow_number, pow_binaryOp, pow_logicalOp, pow_assignOp, pow_unaryOp, pow_updateOp, pow_optIdent, pow_optString, pow_strings, pow_exports, MethodDef.reach_reach m x1 i j]
termination_by structural x => x
theorem PropName.reach_reach (m : LeafMap) : ∀ (x : PropName) (i j : Nat), (x.mapReached (m.pow i)).mapReached (m.pow j) = x.mapReached (m.pow (i + j))
  | .ident x1, i, j => by
    simp only [PropName.mapReached, pow_ident, pow_string, pow_number, pow_binaryOp, pow_logicalOp, pow_assignOp, pow_unaryOp, pow_updateOp, pow_optIdent, pow_optString, pow_strings, pow_exports]
  | .string x1, i, j => by
    simp only [PropName.mapReached, pow_ident, pow_string, pow_number, pow_binaryOp, pow_logicalOp, pow_assignOp, pow_unaryOp, pow_updateOp, pow_optIdent, pow_optString, pow_strings, pow_exports]
  | .number x1, i, j => by
    simp only [PropName.mapReached, pow_ident, pow_string, pow_number, pow_binaryOp, pow_logicalOp, pow_assignOp, pow_unaryOp, pow_updateOp, pow_optIdent, pow_optString, pow_strings, pow_exports]
  | .computed x1, i, j => by
    simp only [PropName.mapReached, pow_ident, pow_string, pow_number, pow_binaryOp, pow_logicalOp, pow_assignOp, pow_unaryOp, pow_updateOp, pow_optIdent, pow_optString, pow_strings, pow_exports, Expr.reach_reach m x1 i j]
termination_by structural x => x
theorem MethodDef.reach_reach (m : LeafMap) : ∀ (x : MethodDef) (i j : Nat), (x.mapReached (m.pow i)).mapReached (m.pow j) = x.mapReached (m.pow (i + j))
  | .mk x1 x2 x3 x4 x5 x6 x7 x8, i, j => by
    simp only [MethodDef.mapReached, pow_ident, pow_string, pow_number, pow_binaryOp, pow_logicalOp, pow_assignOp, pow_unaryOp, pow_updateOp, pow_optIdent, pow_optString, pow_strings, pow_exports, PropName.reach_reach m x2 i j, FormalParams.reach_reach m x4 i j, Body.reach_reach m x5 i j]
termination_by structural x => x
theorem FormalParams.reach_reach (m : LeafMap) : ∀ (x : FormalParams) (i j : Nat), (x.mapReached (m.pow i)).mapReached (m.pow j) = x.mapReached (m.pow (i + j))
  | .mk x1 x2 x3, i, j => by
    simp only [FormalParams.mapReached, pow_ident, pow_string, pow_number, pow_binaryOp, pow_logicalOp, pow_assignOp, pow_unaryOp, pow_updateOp, pow_optIdent, pow_optString, pow_strings, pow_exports, reach_reachBindingElements m x2 i j, reach_reachOptBindingPattern m x3 i j]
termination_by structural x => x
theorem Body.reach_reach (m : LeafMap) : ∀ (x : Body) (i j : Nat), (x.mapReached (m.pow i)).mapReached (m.pow j) = x.mapReached (m.pow (i + j))
  | .mk x1 x2 x3, i, j => by
    simp only [Body.mapReached, pow_ident, pow_string, pow_number, pow_binaryOp, pow_logicalOp, pow_assignOp, pow_unaryOp, pow_updateOp, pow_optIdent, pow_optString, pow_strings, pow_exports, reach_reachStmts m x3 i j]
termination_by structural x => x
theorem ArrowBody.reach_reach (m : LeafMap) : ∀ (x : ArrowBody) (i j : Nat), (x.mapReached (m.pow i)).mapReached (m.pow j) = x.mapReached (m.pow (i + j))
  | .expr x1, i, j => by
    simp only [ArrowBody.mapReached, pow_ident, pow_string, pow_number, pow_binaryOp, pow_logicalOp, pow_assignOp, pow_unaryOp, pow_updateOp, pow_optIdent, pow_optString, pow_strings, pow_exports, Expr.reach_reach m x1 i j]
  | .body x1, i, j => by
    simp only [ArrowBody.mapReached, pow_ident, pow_string, pow_number, pow_binaryOp, pow_logicalOp, pow_assignOp, pow_unaryOp, pow_updateOp, pow_optIdent, pow_optString, pow_strings, pow_exports, Body.reach_reach m x1 i j]
termination_by structural x => x
theorem MemberObject.reach_reach (m : LeafMap) : ∀ (x : MemberObject) (i j : Nat), (x.mapReached (m.pow i)).mapReached (m.pow j) = x.mapReached (m.pow (i + j))
  | .expr x1, i, j => by
    simp only [MemberObject.mapReached, pow_ident, pow_string, pow_number, pow_binaryOp, pow_logicalOp, pow_assignOp, pow_unaryOp, pow_updateOp, pow_optIdent, pow_optString, pow_strings, pow_exports, Expr.reach_reach m x1 i j]
  | .super x1, i, j => by
    simp only [MemberObject.mapReached, pow_ident, pow_string, pow_number, pow_binaryOp, pow_logicalOp, pow_assignOp, pow_unaryOp, pow_updateOp, pow_optIdent, pow_optString, pow_strings, pow_exports]
termination_by structural x => x
theorem MemberProp.reach_reach (m : LeafMap) : ∀ (x : MemberProp) (i j : Nat), (x.mapReached (m.pow i)).mapReached (m.pow j) = x.mapReached (m.pow (i + j))
  | .ident x1, i, j => by
    simp only [MemberProp.mapReached, pow_ident, pow_string, pow_number, pow_binaryOp, pow_logicalOp, pow_assignOp, pow_unaryOp, pow_updateOp, pow_optIdent, pow_optString, pow_strings, pow_exports]
  | .expr x1, i, j => by
    simp only [MemberProp.mapReached, pow_ident, pow_string, pow_number, pow_binaryOp, pow_logicalOp, pow_assignOp, pow_unaryOp, pow_updateOp, pow_optIdent, pow_optString, pow_strings, pow_exports, Expr.reach_reach m x1 i j]
termination_by structural x => x
theorem Argument.reach_reach (m : LeafMap) : ∀ (x : Argument) (i j : Nat), (x.mapReached (m.pow i)).mapReached (m.pow j) = x.mapReached (m.pow (i + j))
  | .expr x1, i, j => by
    simp only [Argument.mapReached, pow_ident, pow_string, pow_number, pow_binaryOp, pow_logicalOp, pow_assignOp, pow_unaryOp, pow_updateOp, pow_optIdent, pow_optString, pow_strings, pow_exports, Expr.reach_reach m x1 i j]
  | .spread x1, i, j => by
    simp only [Argument.mapReached, pow_ident, pow_string, pow_number, pow_binaryOp, pow_logicalOp, pow_assignOp, pow_unaryOp, pow_updateOp, pow_optIdent, pow_optString, pow_strings, pow_exports, Expr.reach_reach m x1 i j]
termination_by structural x => x
theorem Callee.reach_reach (m : LeafMap) : ∀ (x : Callee) (i j : Nat), (x.mapReached (m.pow i)).mapReached (m.pow j) = x.mapReached (m.pow (i + j))
  | .super, i, j => by
    simp only [Callee.mapReached, pow_ident, pow_string, pow_number, pow_binaryOp, pow_logicalOp, pow_assignOp, pow_unaryOp, pow_updateOp, pow_optIdent, pow_optString, pow_strings, pow_exports]
  | .import, i, j => by
    simp only [Callee.mapReached, pow_ident, pow_string, pow_number, pow_binaryOp, pow_logicalOp, pow_assignOp, pow_unaryOp, pow_updateOp, pow_optIdent, pow_optString, pow_strings, pow_exports]
  | .expr x1, i, j => by
    simp only [Callee.mapReached, pow_ident, pow_string, pow_number, pow_binaryOp, pow_logicalOp, pow_assignOp, pow_unaryOp, pow_updateOp, pow_optIdent, pow_optString, pow_strings, pow_exports, Expr.reach_reach m x1 i j]
termination_by structural x => x
theorem BindingPattern.reach_reach (m : LeafMap) : ∀ (x : BindingPattern) (i j : Nat), (x.mapReached (m.pow i)).mapReached (m.pow j) = x.mapReached (m.pow (i + j))
  | .ident x1, i, j => by
    simp only [BindingPattern.mapReached, pow_ident, pow_string, pow_number, pow_binaryOp, pow_logicalOp, pow_assignOp, pow_unaryOp, pow_updateOp, pow_optIdent, pow_optString, pow_strings, pow_exports]
  | .array x1 x2 x3, i, j => by
    simp only [BindingPattern.mapReached, pow_ident, pow_string, pow_number, pow_binaryOp, pow_logicalOp, pow_assignOp, pow_unaryOp, pow_updateOp, pow_optIdent, pow_optString, pow_strings, pow_exports, reach_reachOptBindingElements m x2 i j, reach_reachOptBindingPattern m x3 i j]
  | .object x1 x2 x3, i, j => by
    simp only [BindingPattern.mapReached, pow_ident, pow_string, pow_number, pow_binaryOp, pow_logicalOp, pow_assignOp, pow_unaryOp, pow_updateOp, pow_optIdent, pow_optString, pow_strings, pow_exports, reach_reachBindingProps m x2 i j, reach_reachOptBindingPattern m x3 i j]
termination_by structural x => x
theorem BindingProp.reach_reach (m : LeafMap) : ∀ (x : BindingProp) (i j : Nat), (x.mapReached (m.pow i)).mapReached (m.pow j) = x.mapReached (m.pow (i + j))
  | .single x1 x2 x3, i, j => by
    simp only [BindingProp.mapReached, pow_ident, pow_string, pow_number, pow_binaryOp, pow_logicalOp, pow_assignOp, pow_unaryOp, pow_updateOp, pow_optIdent, pow_optString, pow_strings, pow_exports, reach_reachOptExpr m x3 i j]
  | .named x1 x2 x3, i, j => by
    simp only [BindingProp.mapReached, pow_ident, pow_string, pow_number, pow_binaryOp, pow_logicalOp, pow_assignOp, pow_unaryOp, pow_updateOp, pow_optIdent, pow_optString, pow_strings, pow_exports, PropName.reach_reach m x2 i j, BindingElement.reach_reach m x3 i j]
termination_by structural x => x
theorem BindingElement.reach_reach (m : LeafMap) : ∀ (x : BindingElement) (i j : Nat), (x.mapReached (m.pow i)).mapReached (m.pow j) = x.mapReached (m.pow (i + j))
  | .mk x1 x2 x3, i, j => by
    simp only [BindingElement.mapReached, pow_ident, pow_string, pow_number, pow_binaryOp, pow_logicalOp, pow_assignOp, pow_unaryOp, pow_updateOp, pow_optIdent, pow_optString, pow_strings, pow_exports, BindingPattern.reach_reach m x2 i j, reach_reachOptExpr m x3 i j]
termination_by structural x => x
theorem PatternOrExpr.reach_reach (m : LeafMap) : ∀ (x : PatternOrExpr) (i j : Nat), (x.mapReached (m.pow i)).mapReached (m.pow j) = x.mapReached (m.pow (i + j))
  | .expr x1, i, j => by
    simp only [PatternOrExpr.mapReached, pow_ident, pow_string, pow_number, pow_binaryOp, pow_logicalOp, pow_assignOp, pow_unaryOp, pow_updateOp, pow_optIdent, pow_optString, pow_strings, pow_exports, Expr.reach_reach m x1 i j]
  | .pattern x1, i, j => by
    simp only [PatternOrExpr.mapReached]
termination_by structural x => x
theorem Stmt.reach_reach (m : LeafMap) : ∀ (x : Stmt) (i j : Nat), (x.mapReached (m.pow i)).mapReached (m.pow j) = x.mapReached (m.pow (i + j))
  | .block x1, i, j => by
    simp only [Stmt.mapReached, pow_ident, pow_string, pow_number, pow_binaryOp, pow_logicalOp, pow_assignOp, pow_unaryOp, pow_updateOp, pow_optIdent, pow_optString, pow_strings, pow_exports, Block.reach_reach m x1 i j]
  | .break x1 x2, i, j => by
    simp only [Stmt.mapReached, pow_ident, pow_string, pow_number, pow_binaryOp, pow_logicalOp, pow_assignOp, pow_unaryOp, pow_updateOp, pow_optIdent, pow_optString, pow_strings, pow_exports]
  | .continue x1 x2, i, j => by
    simp only [Stmt.mapReached, pow_ident, pow_string, pow_number, pow_binaryOp, pow_logicalOp, pow_assignOp, pow_unaryOp, pow_updateOp, pow_optIdent, pow_optString, pow_strings, pow_exports]
  | .debugger x1, i, j => by
    simp only [Stmt.mapReached, pow_ident, pow_string, pow_number, pow_binaryOp, pow_logicalOp, pow_assignOp, pow_unaryOp, pow_updateOp, pow_optIdent, pow_optString, pow_strings, pow_exports]
  | .doWhile x1 x2 x3, i, j => by
    simp only [Stmt.mapReached, pow_ident, pow_string, pow_number, pow_binaryOp, pow_logicalOp, pow_assignOp, pow_unaryOp, pow_updateOp, pow_optIdent, pow_optString, pow_strings, pow_exports, Stmt.reach_reach m x2 i j, Expr.reach_reach m x3 i j]
  | .empty x1, i, j => by
    simp only [Stmt.mapReached, pow_ident, pow_string, pow_number, pow_binaryOp, pow_logicalOp, pow_assignOp, pow_unaryOp, pow_updateOp, pow_optIdent, pow_optString, pow_strings, pow_exports]
  | .expr x1 x2, i, j => by
    simp only [Stmt.mapReached, pow_ident, pow_string, pow_number, pow_binaryOp, pow_logicalOp, pow_assignOp, pow_unaryOp, pow_updateOp, pow_optIdent, pow_optString, pow_strings, pow_exports, Expr.reach_reach m x2 i j]
  | .for x1 x2 x3 x4 x5, i, j => by
    simp only [Stmt.mapReached, pow_ident, pow_string, pow_number, pow_binaryOp, pow_logicalOp, pow_assignOp, pow_unaryOp, pow_updateOp, pow_optIdent, pow_optString, pow_strings, pow_exports, reach_reachOptForInit m x2 i j, reach_reachOptExpr m x3 i j, reach_reachOptExpr m x4 i j, Stmt.reach_reach m x5 i j]
  | .forIn x1 x2 x3 x4, i, j => by
    simp only [Stmt.mapReached, pow_ident, pow_string, pow_number, pow_binaryOp, pow_logicalOp, pow_assignOp, pow_unaryOp, pow_updateOp, pow_optIdent, pow_optString, pow_strings, pow_exports, ForDecl.reach_reach m x2 i j, Expr.reach_reach m x3 i j, Stmt.reach_reach m x4 i j]
  | .forOf x1 x2 x3 x4 x5, i, j => by
    simp only [Stmt.mapReached, pow_ident, pow_string, pow_number, pow_binaryOp, pow_logicalOp, pow_assignOp, pow_unaryOp, pow_updateOp, pow_optIdent, pow_optString, pow_strings, pow_exports, ForDecl.reach_reach m x2 i j, Expr.reach_reach m x3 i j, Stmt.reach_reach m x4 i j]
  | .if x1 x2 x3 x4, i, j => by
    simp only [Stmt.mapReached, pow_ident, pow_string, pow_number, pow_binaryOp, pow_logicalOp, pow_assignOp, pow_unaryOp, pow_updateOp, pow_optIdent, pow_optString, pow_strings, pow_exports, Expr.reach_reach m x2 i j, Stmt.reach_reach m x3 i j, reach_reachOptStmt m x4 i j]
  | .labeled x1 x2 x3, i, j => by
    simp only [Stmt.mapReached, pow_ident, pow_string, pow_number, pow_binaryOp, pow_logicalOp, pow_assignOp, pow_unaryOp, pow_updateOp, pow_optIdent, pow_optString, pow_strings, pow_exports, Stmt.reach_reach m x3 i j]
  | .return x1 x2, i, j => by
    simp only [Stmt.mapReached, pow_ident, pow_string, pow_number, pow_binaryOp, pow_logicalOp, pow_assignOp, pow_unaryOp, pow_updateOp, pow_optIdent, pow_optString, pow_strings, pow_exports, reach_reachOptExpr m x2 i j]
  | .switch x1 x2 x3, i, j => by
    simp only [Stmt.mapReached, pow_ident, pow_string, pow_number, pow_binaryOp, pow_logicalOp, pow_assignOp, pow_unaryOp, pow_updateOp, pow_optIdent, pow_optString, pow_strings, pow_exports, Expr.reach_reach m x2 i j, reach_reachSwitchCases m x3 i j]
  | .throw x1 x2, i, j => by
    simp only [Stmt.mapReached, pow_ident, pow_string, pow_number, pow_binaryOp, pow_logicalOp, pow_assignOp, pow_unaryOp, pow_updateOp, pow_optIdent, pow_optString, pow_strings, pow_exports, Expr.reach_reach m x2 i j]
  | .try x1 x2 x3 x4, i, j => by
    simp only [Stmt.mapReached, pow_ident, pow_string, pow_number, pow_binaryOp, pow_logicalOp, pow_assignOp, pow_unaryOp, pow_updateOp, pow_optIdent, pow_optString, pow_strings, pow_exports, Block.reach_reach m x2 i j, reach_reachOptCatchClause m x3 i j, reach_reachOptBlock m x4 i j]
  | .variable x1, i, j => by
    simp only [Stmt.mapReached, pow_ident, pow_string, pow_number, pow_binaryOp, pow_logicalOp, pow_assignOp, pow_unaryOp, pow_updateOp, pow_optIdent, pow_optString, pow_strings, pow_exports, VarStmt.reach_reach m x1 i j]
  | .while x1 x2 x3, i, j => by
    simp only [Stmt.mapReached, pow_ident, pow_string, pow_number, pow_binaryOp, pow_logicalOp, pow_assignOp, pow_unaryOp, pow_updateOp, pow_optIdent, pow_optString, pow_strings, pow_exports, Expr.reach_reach m x2 i j, Stmt.reach_reach m x3 i j]
  | .with x1 x2 x3, i, j => by
    simp only [Stmt.mapReached, pow_ident, pow_string, pow_number, pow_binaryOp, pow_logicalOp, pow_assignOp, pow_unaryOp, pow_updateOp, pow_optIdent, pow_optString, pow_strings, pow_exports, Expr.reach_reach m x2 i j, Stmt.reach_reach m x3 i j]
  | .classDecl x1 x2 x3 x4, i, j => by
    simp only [Stmt.mapReached, pow_ident, pow_string, pow_number, pow_binaryOp, pow_logicalOp, pow_assignOp, pow_unaryOp, pow_updateOp, pow_optIdent, pow_optString, pow_strings, pow_exports, reach_reachOptExpr m x3 i j, reach_reachMethodDefs m x4 i j]
  | .functionDecl x1 x2 x3 x4 x5 x6, i, j => by
    simp only [Stmt.mapReached, pow_ident, pow_string, pow_number, pow_binaryOp, pow_logicalOp, pow_assignOp, pow_unaryOp, pow_updateOp, pow_optIdent, pow_optString, pow_strings, pow_exports, FormalParams.reach_reach m x5 i j, Body.reach_reach m x6 i j]
  | .importDecl x1 x2 x3 x4 x5, i, j => by
    simp only [Stmt.mapReached, LeafMap.pow_twice, pow_optIdent, pow_string, pow_imports,
      show i + i + (j + j) = i + j + (i + j) by omega]
  | .exportDecl x1, i, j => by
    simp only [Stmt.mapReached, pow_ident, pow_string, pow_number, pow_binaryOp, pow_logicalOp, pow_assignOp, pow_unaryOp, pow_updateOp, pow_optIdent, pow_optString, pow_strings, pow_exports, ExportDecl.reach_reach m x1 i j]
termination_by structural x => x
theorem Block.reach_reach (m : LeafMap) : ∀ (x : Block) (i j : Nat), (x.mapReached (m.pow i)).mapReached (m.pow j) = x.mapReached (m.pow (i + j))
  | .mk x1 x2, i, j => by
    simp only [Block.mapReached, pow_ident, pow_string, pow_number, pow_binaryOp, pow_logicalOp, pow_assignOp, pow_unaryOp, pow_updateOp, pow_optIdent, pow_optString, pow_strings, pow_exports, reach_reachStmts m x2 i j]
termination_by structural x => x
theorem VarStmt.reach_reach (m : LeafMap) : ∀ (x : VarStmt) (i j : Nat), (x.mapReached (m.pow i)).mapReached (m.pow j) = x.mapReached (m.pow (i + j))
  | .mk x1 x2 x3, i, j => by
    simp only [VarStmt.mapReached, pow_ident, pow_string, pow_number, pow_binaryOp, pow_logicalOp, pow_assignOp, pow_unaryOp, pow_updateOp, pow_optIdent, pow_optString, pow_strings, pow_exports, reach_reachVarDecls m x3 i j]
termination_by structural x => x
theorem VarDecl.reach_reach (m : LeafMap) : ∀ (x : VarDecl) (i j : Nat), (x.mapReached (m.pow i)).mapReached (m.pow j) = x.mapReached (m.pow (i + j))
  | .mk x1 x2 x3, i, j => by
    simp only [VarDecl.mapReached, pow_ident, pow_string, pow_number, pow_binaryOp, pow_logicalOp, pow_assignOp, pow_unaryOp, pow_updateOp, pow_optIdent, pow_optString, pow_strings, pow_exports, BindingPattern.reach_reach m x2 i j, reach_reachOptExpr m x3 i j]
termination_by structural x => x
theorem CatchClause.reach_reach (m : LeafMap) : ∀ (x : CatchClause) (i j : Nat), (x.mapReached (m.pow i)).mapReached (m.pow j) = x.mapReached (m.pow (i + j))
  | .mk x1 x2 x3, i, j => by
    simp only [CatchClause.mapReached, pow_ident, pow_string, pow_number, pow_binaryOp, pow_logicalOp, pow_assignOp, pow_unaryOp, pow_updateOp, pow_optIdent, pow_optString, pow_strings, pow_exports, reach_reachOptBindingPattern m x2 i j, Block.reach_reach m x3 i j]
termination_by structural x => x
theorem SwitchCase.reach_reach (m : LeafMap) : ∀ (x : SwitchCase) (i j : Nat), (x.mapReached (m.pow i)).mapReached (m.pow j) = x.mapReached (m.pow (i + j))
  | .mk x1 x2 x3, i, j => by
    simp only [SwitchCase.mapReached, pow_ident, pow_string, pow_number, pow_binaryOp, pow_logicalOp, pow_assignOp, pow_unaryOp, pow_updateOp, pow_optIdent, pow_optString, pow_strings, pow_exports, reach_reachOptExpr m x2 i j, reach_reachStmts m x3 i j]
termination_by structural x => x
theorem ForInit.reach_reach (m : LeafMap) : ∀ (x : ForInit) (i j : Nat), (x.mapReached (m.pow i)).mapReached (m.pow j) = x.mapReached (m.pow (i + j))
  | .expr x1, i, j => by
    simp only [ForInit.mapReached, pow_ident, pow_string, pow_number, pow_binaryOp, pow_logicalOp, pow_assignOp, pow_unaryOp, pow_updateOp, pow_optIdent, pow_optString, pow_strings, pow_exports, Expr.reach_reach m x1 i j]
  | .declaration x1, i, j => by
    simp only [ForInit.mapReached, pow_ident, pow_string, pow_number, pow_binaryOp, pow_logicalOp, pow_assignOp, pow_unaryOp, pow_updateOp, pow_optIdent, pow_optString, pow_strings, pow_exports, VarStmt.reach_reach m x1 i j]
termination_by structural x => x
theorem ForDecl.reach_reach (m : LeafMap) : ∀ (x : ForDecl) (i j : Nat), (x.mapReached (m.pow i)).mapReached (m.pow j) = x.mapReached (m.pow (i + j))
  | .expr x1, i, j => by
    simp only [ForDecl.mapReached, pow_ident, pow_string, pow_number, pow_binaryOp, pow_logicalOp, pow_assignOp, pow_unaryOp, pow_updateOp, pow_optIdent, pow_optString, pow_strings, pow_exports, Expr.reach_reach m x1 i j]
  | .pattern x1, i, j => by
    simp only [ForDecl.mapReached]
  | .declaration x1 x2 x3, i, j => by
    simp only [ForDecl.mapReached, pow_ident, pow_string, pow_number, pow_binaryOp, pow_logicalOp, pow_assignOp, pow_unaryOp, pow_updateOp, pow_optIdent, pow_optString, pow_strings, pow_exports, BindingPattern.reach_reach m x3 i j]
termination_by structural x => x
theorem ExportDecl.reach_reach (m : LeafMap) : ∀ (x : ExportDecl) (i j : Nat), (x.mapReached (m.pow i)).mapReached (m.pow j) = x.mapReached (m.pow (i + j))
  | .decl x1 x2, i, j => by
    simp only [ExportDecl.mapReached, pow_ident, pow_string, pow_number, pow_binaryOp, pow_logicalOp, pow_assignOp, pow_unaryOp, pow_updateOp, pow_optIdent, pow_optString, pow_strings, pow_exports, Stmt.reach_reach m x2 i j]
  | .defaultExpr x1 x2, i, j => by
    simp only [ExportDecl.mapReached, pow_ident, pow_string, pow_number, pow_binaryOp, pow_logicalOp, pow_assignOp, pow_unaryOp, pow_updateOp, pow_optIdent, pow_optString, pow_strings, pow_exports, Expr.reach_reach m x2 i j]
  | .defaultDecl x1 x2, i, j => by
    simp only [ExportDecl.mapReached, pow_ident, pow_string, pow_number, pow_binaryOp, pow_logicalOp, pow_assignOp, pow_unaryOp, pow_updateOp, pow_optIdent, pow_optString, pow_strings, pow_exports, Stmt.reach_reach m x2 i j]
  | .named x1 x2 x3, i, j => by
    simp only [ExportDecl.mapReached, pow_ident, pow_string, pow_number, pow_binaryOp, pow_logicalOp, pow_assignOp, pow_unaryOp, pow_updateOp, pow_optIdent, pow_optString, pow_strings, pow_exports]
  | .namespace x1 x2 x3, i, j => by
    simp only [ExportDecl.mapReached, pow_ident, pow_string, pow_number, pow_binaryOp, pow_logicalOp, pow_assignOp, pow_unaryOp, pow_updateOp, pow_optIdent, pow_optString, pow_strings, pow_exports]
termination_by structural x => x
theorem reach_reachExprs (m : LeafMap) : ∀ (x : List Expr) (i j : Nat), reachExprs (m.pow j) (reachExprs (m.pow i) x) = reachExprs (m.pow (i + j)) x
  | [], i, j => by
    simp only [reachExprs, pow_ident, pow_string, pow_number, pow_binaryOp, pow_logicalOp, pow_assignOp, pow_unaryOp, pow_updateOp, pow_optIdent, pow_optString, pow_strings, pow_exports]
  | x :: l, i, j => by
    simp only [reachExprs, pow_ident, pow_string, pow_number, pow_binaryOp, pow_logicalOp, pow_assignOp, pow_unaryOp, pow_updateOp, pow_optIdent, pow_optString, pow_strings, pow_exports, Expr.reach_reach m x i j, reach_reachExprs m l i j]
termination_by structural x => x
theorem reach_reachArguments (m : LeafMap) : ∀ (x : List Argument) (i j : Nat), reachArguments (m.pow j) (reachArguments (m.pow i) x) = reachArguments (m.pow (i + j)) x
  | [], i, j => by
    simp only [reachArguments, pow_ident, pow_string, pow_number, pow_binaryOp, pow_logicalOp, pow_assignOp, pow_unaryOp, pow_updateOp, pow_optIdent, pow_optString, pow_strings, pow_exports]
  | x :: l, i, j => by
    simp only [reachArguments, pow_ident, pow_string, pow_number, pow_binaryOp, pow_logicalOp, pow_assignOp, pow_unaryOp, pow_updateOp, pow_optIdent, pow_optString, pow_strings, pow_exports, Argument.reach_reach m x i j, reach_reachArguments m l i j]
termination_by structural x => x
theorem reach_reachArrayElements (m : LeafMap) : ∀ (x : List ArrayElement) (i j : Nat), reachArrayElements (m.pow j) (reachArrayElements (m.pow i) x) = reachArrayElements (m.pow (i + j)) x
  | [], i, j => by
    simp only [reachArrayElements, pow_ident, pow_string, pow_number, pow_binaryOp, pow_logicalOp, pow_assignOp, pow_unaryOp, pow_updateOp, pow_optIdent, pow_optString, pow_strings, pow_exports]
  | x :: l, i, j => by
    simp only [reachArrayElements, pow_ident, pow_string, pow_number, pow_binaryOp, pow_logicalOp, pow_assignOp, pow_unaryOp, pow_updateOp, pow_optIdent, pow_optString, pow_strings, pow_exports, ArrayElement.reach_reach m x i j, reach_reachArrayElements m l i j]
termination_by structural x => x
theorem reach_reachBindingElements (m : LeafMap) : ∀ (x : List BindingElement) (i j : Nat), reachBindingElements (m.pow j) (reachBindingElements (m.pow i) x) = reachBindingElements (m.pow (i + j)) x
  | [], i, j => by
    simp only [reachBindingElements, pow_ident, pow_string, pow_number, pow_binaryOp, pow_logicalOp, pow_assignOp, pow_unaryOp, pow_updateOp, pow_optIdent, pow_optString, pow_strings, pow_exports]
  | x :: l, i, j => by
    simp only [reachBindingElements, pow_ident, pow_string, pow_number, pow_binaryOp, pow_logicalOp, pow_assignOp, pow_unaryOp, pow_updateOp, pow_optIdent, pow_optString, pow_strings, pow_exports, BindingElement.reach_reach m x i j, reach_reachBindingElements m l i j]
termination_by structural x => x
theorem reach_reachBindingProps (m : LeafMap) : ∀ (x : List BindingProp) (i j : Nat), reachBindingProps (m.pow j) (reachBindingProps (m.pow i) x) = reachBindingProps (m.pow (i + j)) x
  | [], i, j => by
    simp only [reachBindingProps, pow_ident, pow_string, pow_number, pow_binaryOp, pow_logicalOp, pow_assignOp, pow_unaryOp, pow_updateOp, pow_optIdent, pow_optString, pow_strings, pow_exports]
  | x :: l, i, j => by
    simp only [reachBindingProps, pow_ident, pow_string, pow_number, pow_binaryOp, pow_logicalOp, pow_assignOp, pow_unaryOp, pow_updateOp, pow_optIdent, pow_optString, pow_strings, pow_exports, BindingProp.reach_reach m x i j, reach_reachBindingProps m l i j]
termination_by structural x => x
theorem reach_reachMethodDefs (m : LeafMap) : ∀ (x : List MethodDef) (i j : Nat), reachMethodDefs (m.pow j) (reachMethodDefs (m.pow i) x) = reachMethodDefs (m.pow (i + j)) x
  | [], i, j => by
    simp only [reachMethodDefs, pow_ident, pow_string, pow_number, pow_binaryOp, pow_logicalOp, pow_assignOp, pow_unaryOp, pow_updateOp, pow_optIdent, pow_optString, pow_strings, pow_exports]
  | x :: l, i, j => by
    simp only [reachMethodDefs, pow_ident, pow_string, pow_number, pow_binaryOp, pow_logicalOp, pow_assignOp, pow_unaryOp, pow_updateOp, pow_optIdent, pow_optString, pow_strings, pow_exports, MethodDef.reach_reach m x i j, reach_reachMethodDefs m l i j]
termination_by structural x => x
theorem reach_reachPropDefs (m : LeafMap) : ∀ (x : List PropDef) (i j : Nat), reachPropDefs (m.pow j) (reachPropDefs (m.pow i) x) = reachPropDefs (m.pow (i + j)) x
  | [], i, j => by
    simp only [reachPropDefs, pow_ident, pow_string, pow_number, pow_binaryOp, pow_logicalOp, pow_assignOp, pow_unaryOp, pow_updateOp, pow_optIdent, pow_optString, pow_strings, pow_exports]
  | x :: l, i, j => by
    simp only [reachPropDefs, pow_ident, pow_string, pow_number, pow_binaryOp, pow_logicalOp, pow_assignOp, pow_unaryOp, pow_updateOp, pow_optIdent, pow_optString, pow_strings, pow_exports, PropDef.reach_reach m x i j, reach_reachPropDefs m l i j]
termination_by structural x => x
theorem reach_reachStmts (m : LeafMap) : ∀ (x : List Stmt) (i j : Nat), reachStmts (m.pow j) (reachStmts (m.pow i) x) = reachStmts (m.pow (i + j)) x
  | [], i, j => by
    simp only [reachStmts, pow_ident, pow_string, pow_number, pow_binaryOp, pow_logicalOp, pow_assignOp, pow_unaryOp, pow_updateOp, pow_optIdent, pow_optString, pow_strings, pow_exports]
  | x :: l, i, j => by
    simp only [reachStmts, pow_ident, pow_string, pow_number, pow_binaryOp, pow_logicalOp, pow_assignOp, pow_unaryOp, pow_updateOp, pow_optIdent, pow_optString, pow_strings, pow_exports, Stmt.reach_reach m x i j, reach_reachStmts m l i j]
termination_by structural x => x
theorem reach_reachSwitchCases (m : LeafMap) : ∀ (x : List SwitchCase) (i j : Nat), reachSwitchCases (m.pow j) (reachSwitchCases (m.pow i) x) = reachSwitchCases (m.pow (i + j)) x
  | [], i, j => by
    simp only [reachSwitchCases, pow_ident, pow_string, pow_number, pow_binaryOp, pow_logicalOp, pow_assignOp, pow_unaryOp, pow_updateOp, pow_optIdent, pow_optString, pow_strings, pow_exports]
  | x :: l, i, j => by
    simp only [reachSwitchCases, pow_ident, pow_string, pow_number, pow_binaryOp, pow_logicalOp, pow_assignOp, pow_unaryOp, pow_updateOp, pow_optIdent, pow_optString, pow_strings, pow_exports, SwitchCase.reach_reach m x i j, reach_reachSwitchCases m l i j]
termination_by structural x => x
theorem reach_reachTemplateParts (m : LeafMap) : ∀ (x : List TemplatePart) (i j : Nat), reachTemplateParts (m.pow j) (reachTemplateParts (m.pow i) x) = reachTemplateParts (m.pow (i + j)) x
  | [], i, j => by
    simp only [reachTemplateParts, pow_ident, pow_string, pow_number, pow_binaryOp, pow_logicalOp, pow_assignOp, pow_unaryOp, pow_updateOp, pow_optIdent, pow_optString, pow_strings, pow_exports]
  | x :: l, i, j => by
    simp only [reachTemplateParts, pow_ident, pow_string, pow_number, pow_binaryOp, pow_logicalOp, pow_assignOp, pow_unaryOp, pow_updateOp, pow_optIdent, pow_optString, pow_strings, pow_exports, TemplatePart.reach_reach m x i j, reach_reachTemplateParts m l i j]
termination_by structural x => x
theorem reach_reachVarDecls (m : LeafMap) : ∀ (x : List VarDecl) (i j : Nat), reachVarDecls (m.pow j) (reachVarDecls (m.pow i) x) = reachVarDecls (m.pow (i + j)) x
  | [], i, j => by
    simp only [reachVarDecls, pow_ident, pow_string, pow_number, pow_binaryOp, pow_logicalOp, pow_assignOp, pow_unaryOp, pow_updateOp, pow_optIdent, pow_optString, pow_strings, pow_exports]
  | x :: l, i, j => by
    simp only [reachVarDecls, pow_ident, pow_string, pow_number, pow_binaryOp, pow_logicalOp, pow_assignOp, pow_unaryOp, pow_updateOp, pow_optIdent, pow_optString, pow_strings, pow_exports, VarDecl.reach_reach m x i j, reach_reachVarDecls m l i j]
termination_by structural x => x
theorem reach_reachOptBindingElement (m : LeafMap) : ∀ (x : Option BindingElement) (i j : Nat), reachOptBindingElement (m.pow j) (reachOptBindingElement (m.pow i) x) = reachOptBindingElement (m.pow (i + j)) x
  | none, i, j => by
    simp only [reachOptBindingElement, pow_ident, pow_string, pow_number, pow_binaryOp, pow_logicalOp, pow_assignOp, pow_unaryOp, pow_updateOp, pow_optIdent, pow_optString, pow_strings, pow_exports]
  | some x, i, j => by
    simp only [reachOptBindingElement, pow_ident, pow_string, pow_number, pow_binaryOp, pow_logicalOp, pow_assignOp, pow_unaryOp, pow_updateOp, pow_optIdent, pow_optString, pow_strings, pow_exports, BindingElement.reach_reach m x i j]
termination_by structural x => x
theorem reach_reachOptBindingPattern (m : LeafMap) : ∀ (x : Option BindingPattern) (i j : Nat), reachOptBindingPattern (m.pow j) (reachOptBindingPattern (m.pow i) x) = reachOptBindingPattern (m.pow (i + j)) x
  | none, i, j => by
    simp only [reachOptBindingPattern, pow_ident, pow_string, pow_number, pow_binaryOp, pow_logicalOp, pow_assignOp, pow_unaryOp, pow_updateOp, pow_optIdent, pow_optString, pow_strings, pow_exports]
  | some x, i, j => by
    simp only [reachOptBindingPattern, pow_ident, pow_string, pow_number, pow_binaryOp, pow_logicalOp, pow_assignOp, pow_unaryOp, pow_updateOp, pow_optIdent, pow_optString, pow_strings, pow_exports, BindingPattern.reach_reach m x i j]
termination_by structural x => x
theorem reach_reachOptBlock (m : LeafMap) : ∀ (x : Option Block) (i j : Nat), reachOptBlock (m.pow j) (reachOptBlock (m.pow i) x) = reachOptBlock (m.pow (i + j)) x
  | none, i, j => by
    simp only [reachOptBlock, pow_ident, pow_string, pow_number, pow_binaryOp, pow_logicalOp, pow_assignOp, pow_unaryOp, pow_updateOp, pow_optIdent, pow_optString, pow_strings, pow_exports]
  | some x, i, j => by
    simp only [reachOptBlock, pow_ident, pow_string, pow_number, pow_binaryOp, pow_logicalOp, pow_assignOp, pow_unaryOp, pow_updateOp, pow_optIdent, pow_optString, pow_strings, pow_exports, Block.reach_reach m x i j]
termination_by structural x => x
theorem reach_reachOptCatchClause (m : LeafMap) : ∀ (x : Option CatchClause) (i j : Nat), reachOptCatchClause (m.pow j) (reachOptCatchClause (m.pow i) x) = reachOptCatchClause (m.pow (i + j)) x
  | none, i, j => by
    simp only [reachOptCatchClause, pow_ident, pow_string, pow_number, pow_binaryOp, pow_logicalOp, pow_assignOp, pow_unaryOp, pow_updateOp, pow_optIdent, pow_optString, pow_strings, pow_exports]
  | some x, i, j => by
    simp only [reachOptCatchClause, pow_ident, pow_string, pow_number, pow_binaryOp, pow_logicalOp, pow_assignOp, pow_unaryOp, pow_updateOp, pow_optIdent, pow_optString, pow_strings, pow_exports, CatchClause.reach_reach m x i j]
termination_by structural x => x
theorem reach_reachOptExpr (m : LeafMap) : ∀ (x : Option Expr) (i j : Nat), reachOptExpr (m.pow j) (reachOptExpr (m.pow i) x) = reachOptExpr (m.pow (i + j)) x
  | none, i, j => by
    simp only [reachOptExpr, pow_ident, pow_string, pow_number, pow_binaryOp, pow_logicalOp, pow_assignOp, pow_unaryOp, pow_updateOp, pow_optIdent, pow_optString, pow_strings, pow_exports]
  | some x, i, j => by
    simp only [reachOptExpr, pow_ident, pow_string, pow_number, pow_binaryOp, pow_logicalOp, pow_assignOp, pow_unaryOp, pow_updateOp, pow_optIdent, pow_optString, pow_strings, pow_exports, Expr.reach_reach m x i j]
termination_by structural x => x
theorem reach_reachOptForInit (m : LeafMap) : ∀ (x : Option ForInit) (i j : Nat), reachOptForInit (m.pow j) (reachOptForInit (m.pow i) x) = reachOptForInit (m.pow (i + j)) x
  | none, i, j => by
    simp only [reachOptForInit, pow_ident, pow_string, pow_number, pow_binaryOp, pow_logicalOp, pow_assignOp, pow_unaryOp, pow_updateOp, pow_optIdent, pow_optString, pow_strings, pow_exports]
  | some x, i, j => by
    simp only [reachOptForInit, pow_ident, pow_string, pow_number, pow_binaryOp, pow_logicalOp, pow_assignOp, pow_unaryOp, pow_updateOp, pow_optIdent, pow_optString, pow_strings, pow_exports, ForInit.reach_reach m x i j]
termination_by structural x => x
theorem reach_reachOptStmt (m : LeafMap) : ∀ (x : Option Stmt) (i j : Nat), reachOptStmt (m.pow j) (reachOptStmt (m.pow i) x) = reachOptStmt (m.pow (i + j)) x
  | none, i, j => by
    simp only [reachOptStmt, pow_ident, pow_string, pow_number, pow_binaryOp, pow_logicalOp, pow_assignOp, pow_unaryOp, pow_updateOp, pow_optIdent, pow_optString, pow_strings, pow_exports]
  | some x, i, j => by
    simp only [reachOptStmt, pow_ident, pow_string, pow_number, pow_binaryOp, pow_logicalOp, pow_assignOp, pow_unaryOp, pow_updateOp, pow_optIdent, pow_optString, pow_strings, pow_exports, Stmt.reach_reach m x i j]
termination_by structural x => x
theorem reach_reachOptBindingElements (m : LeafMap) : ∀ (x : List (Option BindingElement)) (i j : Nat), reachOptBindingElements (m.pow j) (reachOptBindingElements (m.pow i) x) = reachOptBindingElements (m.pow (i + j)) x
  | [], i, j => by
    simp only [reachOptBindingElements, pow_ident, pow_string, pow_number, pow_binaryOp, pow_logicalOp, pow_assignOp, pow_unaryOp, pow_updateOp, pow_optIdent, pow_optString, pow_strings, pow_exports]
  | x :: l, i, j => by
    simp only [reachOptBindingElements, pow_ident, pow_string, pow_number, pow_binaryOp, pow_logicalOp, pow_assignOp, pow_unaryOp, pow_updateOp, pow_optIdent, pow_optString, pow_strings, pow_exports, reach_reachOptBindingElement m x i j, reach_reachOptBindingElements m l i j]
termination_by structural x => x
end

theorem Expr.reach_twice (m : LeafMap) (x : Expr) : (x.mapReached m).mapReached m = x.mapReached m.twice :=
  Expr.reach_reach m x 1 1

theorem namedExport_same (m : LeafMap) (x : NamedExport) : x.mapReached m = x.mapLeaves m := rfl

mutual
theorem Expr.reach_plain (m : LeafMap) : ∀ (x : Expr), x.Plain → x.mapReached m = x.mapLeaves m
  | .arrow x1 x2 x3 x4 x5, h => by
    simp only [Expr.Plain] at h
    obtain ⟨h1, h2⟩ := h
    simp only [Expr.mapReached, Expr.mapLeaves, namedExport_same, FormalParams.reach_plain m x4 h1, ArrowBody.reach_plain m x5 h2]
  | .assign x1 x2 x3 x4, h => by
    simp only [Expr.Plain] at h
    obtain ⟨h1, h2⟩ := h
    simp only [Expr.mapReached, Expr.mapLeaves, namedExport_same, PatternOrExpr.reach_plain m x3 h1, Expr.reach_plain m x4 h2]
  | .await x1 x2, h => by
    simp only [Expr.Plain] at h
    have h1 := h
    simp only [Expr.mapReached, Expr.mapLeaves, namedExport_same, Expr.reach_plain m x2 h1]
  | .binary x1 x2 x3 x4, h => by
    simp only [Expr.Plain] at h
    obtain ⟨h1, h2⟩ := h
    simp only [Expr.mapReached, Expr.mapLeaves, namedExport_same, Expr.reach_plain m x3 h1, Expr.reach_plain m x4 h2]
  | .call x1 x2 x3 x4, h => by
    simp only [Expr.Plain] at h
    obtain ⟨h1, h2⟩ := h
    simp only [Expr.mapReached, Expr.mapLeaves, namedExport_same, Callee.reach_plain m x2 h1, reach_plainArguments m x4 h2]
  | .classE x1 x2 x3 x4, h => by
    simp only [Expr.Plain] at h
    obtain ⟨h1, h2⟩ := h
    simp only [Expr.mapReached, Expr.mapLeaves, namedExport_same, reach_plainOptExpr m x3 h1, reach_plainMethodDefs m x4 h2]
  | .conditional x1 x2 x3 x4, h => by
    simp only [Expr.Plain] at h
  | .function x1 x2 x3 x4 x5 x6, h => by
    simp only [Expr.Plain] at h
    obtain ⟨h1, h2⟩ := h
    simp only [Expr.mapReached, Expr.mapLeaves, namedExport_same, FormalParams.reach_plain m x5 h1, Body.reach_plain m x6 h2]
  | .ident x1, h => by
    simp only [Expr.mapReached, Expr.mapLeaves, namedExport_same]
  | .literal x1 x2, h => by
    simp only [Expr.Plain] at h
    have h1 := h
    simp only [Expr.mapReached, Expr.mapLeaves, namedExport_same, Literal.reach_plain m x2 h1]
  | .logical x1 x2 x3 x4, h => by
    simp only [Expr.Plain] at h
    obtain ⟨h1, h2⟩ := h
    simp only [Expr.mapReached, Expr.mapLeaves, namedExport_same, Expr.reach_plain m x3 h1, Expr.reach_plain m x4 h2]
  | .member x1 x2 x3, h => by
    simp only [Expr.Plain] at h
    obtain ⟨h1, h2⟩ := h
    simp only [Expr.mapReached, Expr.mapLeaves, namedExport_same, MemberObject.reach_plain m x2 h1, MemberProp.reach_plain m x3 h2]
  | .metaProp x1 x2 x3, h => by
    simp only [Expr.mapReached, Expr.mapLeaves, namedExport_same]
  | .new x1 x2 x3 x4, h => by
    simp only [Expr.Plain] at h
    obtain ⟨h1, h2⟩ := h
    simp only [Expr.mapReached, Expr.mapLeaves, namedExport_same, Expr.reach_plain m x2 h1, reach_plainArguments m x4 h2]
  | .optCall x1 x2 x3 x4 x5, h => by
    simp only [Expr.Plain] at h
    obtain ⟨h1, h2⟩ := h
    simp only [Expr.mapReached, Expr.mapLeaves, namedExport_same, Expr.reach_plain m x2 h1, reach_plainArguments m x4 h2]
  | .optMember x1 x2 x3 x4, h => by
    simp only [Expr.Plain] at h
    obtain ⟨h1, h2⟩ := h
    simp only [Expr.mapReached, Expr.mapLeaves, namedExport_same, Expr.reach_plain m x2 h1, MemberProp.reach_plain m x3 h2]
  | .paren x1 x2, h => by
    simp only [Expr.Plain] at h
    have h1 := h
    simp only [Expr.mapReached, Expr.mapLeaves, namedExport_same, Expr.reach_plain m x2 h1]
  | .sequence x1 x2, h => by
    simp only [Expr.Plain] at h
    have h1 := h
    simp only [Expr.mapReached, Expr.mapLeaves, namedExport_same, reach_plainExprs m x2 h1]
  | .tagged x1 x2 x3, h => by
    simp only [Expr.Plain] at h
    obtain ⟨h1, h2⟩ := h
    simp only [Expr.mapReached, Expr.mapLeaves, namedExport_same, Expr.reach_plain m x2 h1, reach_plainTemplateParts m x3 h2]
  | .this x1, h => by
    simp only [Expr.mapReached, Expr.mapLeaves, namedExport_same]
  | .unary x1 x2 x3, h => by
    simp only [Expr.Plain] at h
    have h1 := h
    simp only [Expr.mapReached, Expr.mapLeaves, namedExport_same, Expr.reach_plain m x3 h1]
  | .update x1 x2 x3 x4, h => by
    simp only [Expr.Plain] at h
    have h1 := h
    simp only [Expr.mapReached, Expr.mapLeaves, namedExport_same, Expr.reach_plain m x4 h1]
  | .yield x1 x2 x3, h => by
    simp only [Expr.Plain] at h
    have h1 := h
    simp only [Expr.mapReached, Expr.mapLeaves, namedExport_same, reach_plainOptExpr m x2 h1]
termination_by structural x => x
theorem Literal.reach_plain (m : LeafMap) : ∀ (x : Literal), x.Plain → x.mapReached m = x.mapLeaves m
  | .null, h => by
    simp only [Literal.mapReached, Literal.mapLeaves, namedExport_same]
  | .boolean x1, h => by
    simp only [Literal.mapReached, Literal.mapLeaves, namedExport_same]
  | .string x1, h => by
    simp only [Literal.mapReached, Literal.mapLeaves, namedExport_same]
  | .number x1, h => by
    simp only [Literal.mapReached, Literal.mapLeaves, namedExport_same]
  | .array x1, h => by
    simp only [Literal.Plain] at h
    have h1 := h
    simp only [Literal.mapReached, Literal.mapLeaves, namedExport_same, reach_plainArrayElements m x1 h1]
  | .object x1, h => by
    simp only [Literal.Plain] at h
    have h1 := h
    simp only [Literal.mapReached, Literal.mapLeaves, namedExport_same, reach_plainPropDefs m x1 h1]
  | .regexp x1, h => by
    simp only [Literal.mapReached, Literal.mapLeaves, namedExport_same]
  | .template x1, h => by
    simp only [Literal.Plain] at h
    have h1 := h
    simp only [Literal.mapReached, Literal.mapLeaves, namedExport_same, reach_plainTemplateParts m x1 h1]
termination_by structural x => x
theorem TemplatePart.reach_plain (m : LeafMap) : ∀ (x : TemplatePart), x.Plain → x.mapReached m = x.mapLeaves m
  | .string x1, h => by
    simp only [TemplatePart.mapReached, TemplatePart.mapLeaves, namedExport_same]
  | .expr x1, h => by
    simp only [TemplatePart.Plain] at h
    have h1 := h
    simp only [TemplatePart.mapReached, TemplatePart.mapLeaves, namedExport_same, Expr.reach_plain m x1 h1]
termination_by structural x => x
theorem ArrayElement.reach_plain (m : LeafMap) : ∀ (x : ArrayElement), x.Plain → x.mapReached m = x.mapLeaves m
  | .elision, h => by
    simp only [ArrayElement.mapReached, ArrayElement.mapLeaves, namedExport_same]
  | .expr x1, h => by
    simp only [ArrayElement.Plain] at h
    have h1 := h
    simp only [ArrayElement.mapReached, ArrayElement.mapLeaves, namedExport_same, Expr.reach_plain m x1 h1]
  | .spread x1, h => by
    simp only [ArrayElement.Plain] at h
    have h1 := h
    simp only [ArrayElement.mapReached, ArrayElement.mapLeaves, namedExport_same, Expr.reach_plain m x1 h1]
termination_by structural x => x
theorem PropDef.reach_plain (m : LeafMap) : ∀ (x : PropDef), x.Plain → x.mapReached m = x.mapLeaves m
  | .identRef x1, h => by
    simp only [PropDef.mapReached, PropDef.mapLeaves, namedExport_same]
  | .spread x1, h => by
    simp only [PropDef.Plain] at h
    have h1 := h
    simp only [PropDef.mapReached, PropDef.mapLeaves, namedExport_same, Expr.reach_plain m x1 h1]
  | .named x1 x2 x3, h => by
    simp only [PropDef.Plain] at h
    obtain ⟨h1, h2⟩ := h
    simp only [PropDef.mapReached, PropDef.mapLeaves, namedExport_same, PropName.reach_plain m x2 h1, Expr.reach_plain m x3 h2]
  | .method x1, h => by
    simp only [PropDef.Plain] at h
    have h1 := h
    simp only [PropDef.mapReached, PropDef.mapLeaves, namedExport_same, MethodDef.reach_plain m x1 h1]
termination_by structural x => x
theorem PropName.reach_plain (m : LeafMap) : ∀ (x : PropName), x.Plain → x.mapReached m = x.mapLeaves m
  | .ident x1, h => by
    simp only [PropName.mapReached, PropName.mapLeaves, namedExport_same]
  | .string x1, h => by
    simp only [PropName.mapReached, PropName.mapLeaves, namedExport_same]
  | .number x1, h => by
    simp only [PropName.mapReached, PropName.mapLeaves, namedExport_same]
  | .computed x1, h => by
    simp only [PropName.Plain] at h
    have h1 := h
    simp only [PropName.mapReached, PropName.mapLeaves, namedExport_same, Expr.reach_plain m x1 h1]
termination_by structural x => x
theorem MethodDef.reach_plain (m : LeafMap) : ∀ (x : MethodDef), x.Plain → x.mapReached m = x.mapLeaves m
  | .mk x1 x2 x3 x4 x5 x6 x7 x8, h => by
    simp only [MethodDef.Plain] at h
    obtain ⟨h1, h2, h3⟩ := h
    simp only [MethodDef.mapReached, MethodDef.mapLeaves, namedExport_same, PropName.reach_plain m x2 h1, FormalParams.reach_plain m x4 h2, Body.reach_plain m x5 h3]
termination_by structural x => x
theorem FormalParams.reach_plain (m : LeafMap) : ∀ (x : FormalParams), x.Plain → x.mapReached m = x.mapLeaves m
  | .mk x1 x2 x3, h => by
    simp only [FormalParams.Plain] at h
    obtain ⟨h1, h2⟩ := h
    simp only [FormalParams.mapReached, FormalParams.mapLeaves, namedExport_same, reach_plainBindingElements m x2 h1, reach_plainOptBindingPattern m x3 h2]
termination_by structural x => x
theorem Body.reach_plain (m : LeafMap) : ∀ (x : Body), x.Plain → x.mapReached m = x.mapLeaves m
  | .mk x1 x2 x3, h => by
    simp only [Body.Plain] at h
    have h1 := h
    simp only [Body.mapReached, Body.mapLeaves, namedExport_same, reach_plainStmts m x3 h1]
termination_by structural x => x
theorem ArrowBody.reach_plain (m : LeafMap) : ∀ (x : ArrowBody), x.Plain → x.mapReached m = x.mapLeaves m
  | .expr x1, h => by
    simp only [ArrowBody.Plain] at h
    have h1 := h
    simp only [ArrowBody.mapReached, ArrowBody.mapLeaves, namedExport_same, Expr.reach_plain m x1 h1]
  | .body x1, h => by
    simp only [ArrowBody.Plain] at h
    have h1 := h
    simp only [ArrowBody.mapReached, ArrowBody.mapLeaves, namedExport_same, Body.reach_plain m x1 h1]
termination_by structural x => x
theorem MemberObject.reach_plain (m : LeafMap) : ∀ (x : MemberObject), x.Plain → x.mapReached m = x.mapLeaves m
  | .expr x1, h => by
    simp only [MemberObject.Plain] at h
    have h1 := h
    simp only [MemberObject.mapReached, MemberObject.mapLeaves, namedExport_same, Expr.reach_plain m x1 h1]
  | .super x1, h => by
    simp only [MemberObject.mapReached, MemberObject.mapLeaves, namedExport_same]
termination_by structural x => x
theorem MemberProp.reach_plain (m : LeafMap) : ∀ (x : MemberProp), x.Plain → x.mapReached m = x.mapLeaves m
  | .ident x1, h => by
    simp only [MemberProp.mapReached, MemberProp.mapLeaves, namedExport_same]
  | .expr x1, h => by
    simp only [MemberProp.Plain] at h
    have h1 := h
    simp only [MemberProp.mapReached, MemberProp.mapLeaves, namedExport_same, Expr.reach_plain m x1 h1]
termination_by structural x => x
theorem Argument.reach_plain (m : LeafMap) : ∀ (x : Argument), x.Plain → x.mapReached m = x.mapLeaves m
  | .expr x1, h => by
    simp only [Argument.Plain] at h
    have h1 := h
    simp only [Argument.mapReached, Argument.mapLeaves, namedExport_same, Expr.reach_plain m x1 h1]
  | .spread x1, h => by
    simp only [Argument.Plain] at h
    have h1 := h
    simp only [Argument.mapReached, Argument.mapLeaves, namedExport_same, Expr.reach_plain m x1 h1]
termination_by structural x => x
theorem Callee.reach_plain (m : LeafMap) : ∀ (x : Callee), x.Plain → x.mapReached m = x.mapLeaves m
  | .super, h => by
    simp only [Callee.mapReached, Callee.mapLeaves, namedExport_same]
  | .import, h => by
    simp only [Callee.mapReached, Callee.mapLeaves, namedExport_same]
  | .expr x1, h => by
    simp only [Callee.Plain] at h
    have h1 := h
    simp only [Callee.mapReached, Callee.mapLeaves, namedExport_same, Expr.reach_plain m x1 h1]
termination_by structural x => x
theorem BindingPattern.reach_plain (m : LeafMap) : ∀ (x : BindingPattern), x.Plain → x.mapReached m = x.mapLeaves m
  | .ident x1, h => by
    simp only [BindingPattern.mapReached, BindingPattern.mapLeaves, namedExport_same]
  | .array x1 x2 x3, h => by
    simp only [BindingPattern.Plain] at h
    obtain ⟨h1, h2⟩ := h
    simp only [BindingPattern.mapReached, BindingPattern.mapLeaves, namedExport_same, reach_plainOptBindingElements m x2 h1, reach_plainOptBindingPattern m x3 h2]
  | .object x1 x2 x3, h => by
    simp only [BindingPattern.Plain] at h
    obtain ⟨h1, h2⟩ := h
    simp only [BindingPattern.mapReached, BindingPattern.mapLeaves, namedExport_same, reach_plainBindingProps m x2 h1, reach_plainOptBindingPattern m x3 h2]
termination_by structural x => x
theorem BindingProp.reach_plain (m : LeafMap) : ∀ (x : BindingProp), x.Plain → x.mapReached m = x.mapLeaves m
  | .single x1 x2 x3, h => by
    simp only [BindingProp.Plain] at h
    have h1 := h
    simp only [BindingProp.mapReached, BindingProp.mapLeaves, namedExport_same, reach_plainOptExpr m x3 h1]
  | .named x1 x2 x3, h => by
    simp only [BindingProp.Plain] at h
    obtain ⟨h1, h2⟩ := h
    simp only [BindingProp.mapReached, BindingProp.mapLeaves, namedExport_same, PropName.reach_plain m x2 h1, BindingElement.reach_plain m x3 h2]
termination_by structural x => x
theorem BindingElement.reach_plain (m : LeafMap) : ∀ (x : BindingElement), x.Plain → x.mapReached m = x.mapLeaves m
  | .mk x1 x2 x3, h => by
    simp only [BindingElement.Plain] at h
    obtain ⟨h1, h2⟩ := h
    simp only [BindingElement.mapReached, BindingElement.mapLeaves, namedExport_same, BindingPattern.reach_plain m x2 h1, reach_plainOptExpr m x3 h2]
termination_by structural x => x
theorem PatternOrExpr.reach_plain (m : LeafMap) : ∀ (x : PatternOrExpr), x.Plain → x.mapReached m = x.mapLeaves m
  | .expr x1, h => by
    simp only [PatternOrExpr.Plain] at h
    have h1 := h
    simp only [PatternOrExpr.mapReached, PatternOrExpr.mapLeaves, namedExport_same, Expr.reach_plain m x1 h1]
  | .pattern x1, h => by
    simp only [PatternOrExpr.Plain] at h
termination_by structural x => x
theorem Stmt.reach_plain (m : LeafMap) : ∀ (x : Stmt), x.Plain → x.mapReached m = x.mapLeaves m
  | .block x1, h => by
    simp only [Stmt.Plain] at h
    have h1 := h
    simp only [Stmt.mapReached, Stmt.mapLeaves, namedExport_same, Block.reach_plain m x1 h1]
  | .break x1 x2, h => by
    simp only [Stmt.mapReached, Stmt.mapLeaves, namedExport_same]
  | .continue x1 x2, h => by
    simp only [Stmt.mapReached, Stmt.mapLeaves, namedExport_same]
  | .debugger x1, h => by
    simp only [Stmt.mapReached, Stmt.mapLeaves, namedExport_same]
  | .doWhile x1 x2 x3, h => by
    simp only [Stmt.Plain] at h
    obtain ⟨h1, h2⟩ := h
    simp only [Stmt.mapReached, Stmt.mapLeaves, namedExport_same, Stmt.reach_plain m x2 h1, Expr.reach_plain m x3 h2]
  | .empty x1, h => by
    simp only [Stmt.mapReached, Stmt.mapLeaves, namedExport_same]
  | .expr x1 x2, h => by
    simp only [Stmt.Plain] at h
    have h1 := h
    simp only [Stmt.mapReached, Stmt.mapLeaves, namedExport_same, Expr.reach_plain m x2 h1]
  | .for x1 x2 x3 x4 x5, h => by
    simp only [Stmt.Plain] at h
    obtain ⟨h1, h2, h3, h4⟩ := h
    simp only [Stmt.mapReached, Stmt.mapLeaves, namedExport_same, reach_plainOptForInit m x2 h1, reach_plainOptExpr m x3 h2, reach_plainOptExpr m x4 h3, Stmt.reach_plain m x5 h4]
  | .forIn x1 x2 x3 x4, h => by
    simp only [Stmt.Plain] at h
    obtain ⟨h1, h2, h3⟩ := h
    simp only [Stmt.mapReached, Stmt.mapLeaves, namedExport_same, ForDecl.reach_plain m x2 h1, Expr.reach_plain m x3 h2, Stmt.reach_plain m x4 h3]
  | .forOf x1 x2 x3 x4 x5, h => by
    simp only [Stmt.Plain] at h
    obtain ⟨h1, h2, h3⟩ := h
    simp only [Stmt.mapReached, Stmt.mapLeaves, namedExport_same, ForDecl.reach_plain m x2 h1, Expr.reach_plain m x3 h2, Stmt.reach_plain m x4 h3]
  | .if x1 x2 x3 x4, h => by
    simp only [Stmt.Plain] at h
    obtain ⟨h1, h2, h3⟩ := h
    simp only [Stmt.mapReached, Stmt.mapLeaves, namedExport_same, Expr.reach_plain m x2 h1, Stmt.reach_plain m x3 h2, reach_plainOptStmt m x4 h3]
  | .labeled x1 x2 x3, h => by
    simp only [Stmt.Plain] at h
    have h1 := h
    simp only [Stmt.mapReached, Stmt.mapLeaves, namedExport_same, Stmt.reach_plain m x3 h1]
  | .return x1 x2, h => by
    simp only [Stmt.Plain] at h
    have h1 := h
    simp only [Stmt.mapReached, Stmt.mapLeaves, namedExport_same, reach_plainOptExpr m x2 h1]
  | .switch x1 x2 x3, h => by
    simp only [Stmt.Plain] at h
    obtain ⟨h1, h2⟩ := h
    simp only [Stmt.mapReached, Stmt.mapLeaves, namedExport_same, Expr.reach_plain m x2 h1, reach_plainSwitchCases m x3 h2]
  | .throw x1 x2, h => by
    simp only [Stmt.Plain] at h
    have h1 := h
    simp only [Stmt.mapReached, Stmt.mapLeaves, namedExport_same, Expr.reach_plain m x2 h1]
  | .try x1 x2 x3 x4, h => by
    simp only [Stmt.Plain] at h
    obtain ⟨h1, h2, h3⟩ := h
    simp only [Stmt.mapReached, Stmt.mapLeaves, namedExport_same, Block.reach_plain m x2 h1, reach_plainOptCatchClause m x3 h2, reach_plainOptBlock m x4 h3]
  | .variable x1, h => by
    simp only [Stmt.Plain] at h
    have h1 := h
    simp only [Stmt.mapReached, Stmt.mapLeaves, namedExport_same, VarStmt.reach_plain m x1 h1]
  | .while x1 x2 x3, h => by
    simp only [Stmt.Plain] at h
    obtain ⟨h1, h2⟩ := h
    simp only [Stmt.mapReached, Stmt.mapLeaves, namedExport_same, Expr.reach_plain m x2 h1, Stmt.reach_plain m x3 h2]
  | .with x1 x2 x3, h => by
    simp only [Stmt.Plain] at h
    obtain ⟨h1, h2⟩ := h
    simp only [Stmt.mapReached, Stmt.mapLeaves, namedExport_same, Expr.reach_plain m x2 h1, Stmt.reach_plain m x3 h2]
  | .classDecl x1 x2 x3 x4, h => by
    simp only [Stmt.Plain] at h
    obtain ⟨h1, h2⟩ := h
    simp only [Stmt.mapReached, Stmt.mapLeaves, namedExport_same, reach_plainOptExpr m x3 h1, reach_plainMethodDefs m x4 h2]
  | .functionDecl x1 x2 x3 x4 x5 x6, h => by
    simp only [Stmt.Plain] at h
    obtain ⟨h1, h2⟩ := h
    simp only [Stmt.mapReached, Stmt.mapLeaves, namedExport_same, FormalParams.reach_plain m x5 h1, Body.reach_plain m x6 h2]
  | .importDecl x1 x2 x3 x4 x5, h => by
    simp only [Stmt.Plain] at h
    obtain ⟨rfl, rfl⟩ := h
    simp only [Stmt.mapReached, Stmt.mapLeaves, Option.map_none]
  | .exportDecl x1, h => by
    simp only [Stmt.Plain] at h
    have h1 := h
    simp only [Stmt.mapReached, Stmt.mapLeaves, namedExport_same, ExportDecl.reach_plain m x1 h1]
termination_by structural x => x
theorem Block.reach_plain (m : LeafMap) : ∀ (x : Block), x.Plain → x.mapReached m = x.mapLeaves m
  | .mk x1 x2, h => by
    simp only [Block.Plain] at h
    have h1 := h
    simp only [Block.mapReached, Block.mapLeaves, namedExport_same, reach_plainStmts m x2 h1]
termination_by structural x => x
theorem VarStmt.reach_plain (m : LeafMap) : ∀ (x : VarStmt), x.Plain → x.mapReached m = x.mapLeaves m
  | .mk x1 x2 x3, h => by
    simp only [VarStmt.Plain] at h
    have h1 := h
    simp only [VarStmt.mapReached, VarStmt.mapLeaves, namedExport_same, reach_plainVarDecls m x3 h1]
termination_by structural x => x
theorem VarDecl.reach_plain (m : LeafMap) : ∀ (x : VarDecl), x.Plain → x.mapReached m = x.mapLeaves m
  | .mk x1 x2 x3, h => by
    simp only [VarDecl.Plain] at h
    obtain ⟨h1, h2⟩ := h
    simp only [VarDecl.mapReached, VarDecl.mapLeaves, namedExport_same, BindingPattern.reach_plain m x2 h1, reach_plainOptExpr m x3 h2]
termination_by structural x => x
theorem CatchClause.reach_plain (m : LeafMap) : ∀ (x : CatchClause), x.Plain → x.mapReached m = x.mapLeaves m
  | .mk x1 x2 x3, h => by
    simp only [CatchClause.Plain] at h
    obtain ⟨h1, h2⟩ := h
    simp only [CatchClause.mapReached, CatchClause.mapLeaves, namedExport_same, reach_plainOptBindingPattern m x2 h1, Block.reach_plain m x3 h2]
termination_by structural x => x
theorem SwitchCase.reach_plain (m : LeafMap) : ∀ (x : SwitchCase), x.Plain → x.mapReached m = x.mapLeaves m
  | .mk x1 x2 x3, h => by
    simp only [SwitchCase.Plain] at h
    obtain ⟨h1, h2⟩ := h
    simp only [SwitchCase.mapReached, SwitchCase.mapLeaves, namedExport_same, reach_plainOptExpr m x2 h1, reach_plainStmts m x3 h2]
termination_by structural x => x
theorem ForInit.reach_plain (m : LeafMap) : ∀ (x : ForInit), x.Plain → x.mapReached m = x.mapLeaves m
  | .expr x1, h => by
    simp only [ForInit.Plain] at h
    have h1 := h
    simp only [ForInit.mapReached, ForInit.mapLeaves, namedExport_same, Expr.reach_plain m x1 h1]
  | .declaration x1, h => by
    simp only [ForInit.Plain] at h
    have h1 := h
    simp only [ForInit.mapReached, ForInit.mapLeaves, namedExport_same, VarStmt.reach_plain m x1 h1]
termination_by structural x => x
theorem ForDecl.reach_plain (m : LeafMap) : ∀ (x : ForDecl), x.Plain → x.mapReached m = x.mapLeaves m
  | .expr x1, h => by
    simp only [ForDecl.Plain] at h
    have h1 := h
    simp only [ForDecl.mapReached, ForDecl.mapLeaves, namedExport_same, Expr.reach_plain m x1 h1]
  | .pattern x1, h => by
    simp only [ForDecl.Plain] at h
  | .declaration x1 x2 x3, h => by
    simp only [ForDecl.Plain] at h
termination_by structural x => x
theorem ExportDecl.reach_plain (m : LeafMap) : ∀ (x : ExportDecl), x.Plain → x.mapReached m = x.mapLeaves m
  | .decl x1 x2, h => by
    simp only [ExportDecl.Plain] at h
    have h1 := h
    simp only [ExportDecl.mapReached, ExportDecl.mapLeaves, namedExport_same, Stmt.reach_plain m x2 h1]
  | .defaultExpr x1 x2, h => by
    simp only [ExportDecl.Plain] at h
    have h1 := h
    simp only [ExportDecl.mapReached, ExportDecl.mapLeaves, namedExport_same, Expr.reach_plain m x2 h1]
  | .defaultDecl x1 x2, h => by
    simp only [ExportDecl.Plain] at h
    have h1 := h
    simp only [ExportDecl.mapReached, ExportDecl.mapLeaves, namedExport_same, Stmt.reach_plain m x2 h1]
  | .named x1 x2 x3, h => by
    simp only [ExportDecl.mapReached, ExportDecl.mapLeaves, namedExport_same]
  | .namespace x1 x2 x3, h => by
    simp only [ExportDecl.mapReached, ExportDecl.mapLeaves, namedExport_same]
termination_by structural x => x
theorem reach_plainExprs (m : LeafMap) : ∀ (x : List Expr), plainExprs x → reachExprs m x = mapExprs m x
  | [], h => by
    simp only [reachExprs, mapExprs, namedExport_same]
  | x :: l, h => by
    simp only [plainExprs] at h
    obtain ⟨h1, h2⟩ := h
    simp only [reachExprs, mapExprs, namedExport_same, Expr.reach_plain m x h1, reach_plainExprs m l h2]
termination_by structural x => x
theorem reach_plainArguments (m : LeafMap) : ∀ (x : List Argument), plainArguments x → reachArguments m x = mapArguments m x
  | [], h => by
    simp only [reachArguments, mapArguments, namedExport_same]
  | x :: l, h => by
    simp only [plainArguments] at h
    obtain ⟨h1, h2⟩ := h
    simp only [reachArguments, mapArguments, namedExport_same, Argument.reach_plain m x h1, reach_plainArguments m l h2]
termination_by structural x => x
theorem reach_plainArrayElements (m : LeafMap) : ∀ (x : List ArrayElement), plainArrayElements x → reachArrayElements m x = mapArrayElements m x
  | [], h => by
    simp only [reachArrayElements, mapArrayElements, namedExport_same]
  | x :: l, h => by
    simp only [plainArrayElements] at h
    obtain ⟨h1, h2⟩ := h
    simp only [reachArrayElements, mapArrayElements, namedExport_same, ArrayElement.reach_plain m x h1, reach_plainArrayElements m l h2]
termination_by structural x => x
theorem reach_plainBindingElements (m : LeafMap) : ∀ (x : List BindingElement), plainBindingElements x → reachBindingElements m x = mapBindingElements m x
  | [], h => by
    simp only [reachBindingElements, mapBindingElements, namedExport_same]
  | x :: l, h => by
    simp only [plainBindingElements] at h
    obtain ⟨h1, h2⟩ := h
    simp only [reachBindingElements, mapBindingElements, namedExport_same, BindingElement.reach_plain m x h1, reach_plainBindingElements m l h2]
termination_by structural x => x
theorem reach_plainBindingProps (m : LeafMap) : ∀ (x : List BindingProp), plainBindingProps x → reachBindingProps m x = mapBindingProps m x
  | [], h => by
    simp only [reachBindingProps, mapBindingProps, namedExport_same]
  | x :: l, h => by
    simp only [plainBindingProps] at h
    obtain ⟨h1, h2⟩ := h
    simp only [reachBindingProps, mapBindingProps, namedExport_same, BindingProp.reach_plain m x h1, reach_plainBindingProps m l h2]
termination_by structural x => x
theorem reach_plainMethodDefs (m : LeafMap) : ∀ (x : List MethodDef), plainMethodDefs x → reachMethodDefs m x = mapMethodDefs m x
  | [], h => by
    simp only [reachMethodDefs, mapMethodDefs, namedExport_same]
  | x :: l, h => by
    simp only [plainMethodDefs] at h
    obtain ⟨h1, h2⟩ := h
    simp only [reachMethodDefs, mapMethodDefs, namedExport_same, MethodDef.reach_plain m x h1, reach_plainMethodDefs m l h2]
termination_by structural x => x
theorem reach_plainPropDefs (m : LeafMap) : ∀ (x : List PropDef), plainPropDefs x → reachPropDefs m x = mapPropDefs m x
  | [], h => by
    simp only [reachPropDefs, mapPropDefs, namedExport_same]
  | x :: l, h => by
    simp only [plainPropDefs] at h
    obtain ⟨h1, h2⟩ := h
    simp only [reachPropDefs, mapPropDefs, namedExport_same, PropDef.reach_plain m x h1, reach_plainPropDefs m l h2]
termination_by structural x => x
theorem reach_plainStmts (m : LeafMap) : ∀ (x : List Stmt), plainStmts x → reachStmts m x = mapStmts m x
  | [], h => by
    simp only [reachStmts, mapStmts, namedExport_same]
  | x :: l, h => by
    simp only [plainStmts] at h
    obtain ⟨h1, h2⟩ := h
    simp only [reachStmts, mapStmts, namedExport_same, Stmt.reach_plain m x h1, reach_plainStmts m l h2]
termination_by structural x => x
theorem reach_plainSwitchCases (m : LeafMap) : ∀ (x : List SwitchCase), plainSwitchCases x → reachSwitchCases m x = mapSwitchCases m x
  | [], h => by
    simp only [reachSwitchCases, mapSwitchCases, namedExport_same]
  | x :: l, h => by
    simp only [plainSwitchCases] at h
    obtain ⟨h1, h2⟩ := h
    simp only [reachSwitchCases, mapSwitchCases, namedExport_same, SwitchCase.reach_plain m x h1, reach_plainSwitchCases m l h2]
termination_by structural x => x
theorem reach_plainTemplateParts (m : LeafMap) : ∀ (x : List TemplatePart), plainTemplateParts x → reachTemplateParts m x = mapTemplateParts m x
  | [], h => by
    simp only [reachTemplateParts, mapTemplateParts, namedExport_same]
  | x :: l, h => by
    simp only [plainTemplateParts] at h
    obtain ⟨h1, h2⟩ := h
    simp only [reachTemplateParts, mapTemplateParts, namedExport_same, TemplatePart.reach_plain m x h1, reach_plainTemplateParts m l h2]
termination_by structural x => x
theorem reach_plainVarDecls (m : LeafMap) : ∀ (x : List VarDecl), plainVarDecls x → reachVarDecls m x = mapVarDecls m x
  | [], h => by
    simp only [reachVarDecls, mapVarDecls, namedExport_same]
  | x :: l, h => by
    simp only [plainVarDecls] at h
    obtain ⟨h1, h2⟩ := h
    simp only [reachVarDecls, mapVarDecls, namedExport_same, VarDecl.reach_plain m x h1, reach_plainVarDecls m l h2]
termination_by structural x => x
theorem reach_plainOptBindingElement (m : LeafMap) : ∀ (x : Option BindingElement), plainOptBindingElement x → reachOptBindingElement m x = mapOptBindingElement m x
  | none, h => by
    simp only [reachOptBindingElement, mapOptBindingElement, namedExport_same]
  | some x, h => by
    simp only [plainOptBindingElement] at h
    have h1 := h
    simp only [reachOptBindingElement, mapOptBindingElement, namedExport_same, BindingElement.reach_plain m x h1]
termination_by structural x => x
theorem reach_plainOptBindingPattern (m : LeafMap) : ∀ (x : Option BindingPattern), plainOptBindingPattern x → reachOptBindingPattern m x = mapOptBindingPattern m x
  | none, h => by
    simp only [reachOptBindingPattern, mapOptBindingPattern, namedExport_same]
  | some x, h => by
    simp only [plainOptBindingPattern] at h
    have h1 := h
    simp only [reachOptBindingPattern, mapOptBindingPattern, namedExport_same, BindingPattern.reach_plain m x h1]
termination_by structural x => x
theorem reach_plainOptBlock (m : LeafMap) : ∀ (x : Option Block), plainOptBlock x → reachOptBlock m x = mapOptBlock m x
  | none, h => by
    simp only [reachOptBlock, mapOptBlock, namedExport_same]
  | some x, h => by
    simp only [plainOptBlock] at h
    have h1 := h
    simp only [reachOptBlock, mapOptBlock, namedExport_same, Block.reach_plain m x h1]
termination_by structural x => x
theorem reach_plainOptCatchClause (m : LeafMap) : ∀ (x : Option CatchClause), plainOptCatchClause x → reachOptCatchClause m x = mapOptCatchClause m x
  | none, h => by
    simp only [reachOptCatchClause, mapOptCatchClause, namedExport_same]
  | some x, h => by
    simp only [plainOptCatchClause] at h
    have h1 := h
    simp only [reachOptCatchClause, mapOptCatchClause, namedExport_same, CatchClause.reach_plain m x h1]
termination_by structural x => x
theorem reach_plainOptExpr (m : LeafMap) : ∀ (x : Option Expr), plainOptExpr x → reachOptExpr m x = mapOptExpr m x
  | none, h => by
    simp only [reachOptExpr, mapOptExpr, namedExport_same]
  | some x, h => by
    simp only [plainOptExpr] at h
    have h1 := h
    simp only [reachOptExpr, mapOptExpr, namedExport_same, Expr.reach_plain m x h1]
termination_by structural x => x
theorem reach_plainOptForInit (m : LeafMap) : ∀ (x : Option ForInit), plainOptForInit x → reachOptForInit m x = mapOptForInit m x
  | none, h => by
    simp only [reachOptForInit, mapOptForInit, namedExport_same]
  | some x, h => by
    simp only [plainOptForInit] at h
    have h1 := h
    simp only [reachOptForInit, mapOptForInit, namedExport_same, ForInit.reach_plain m x h1]
termination_by structural x => x
theorem reach_plainOptStmt (m : LeafMap) : ∀ (x : Option Stmt), plainOptStmt x → reachOptStmt m x = mapOptStmt m x
  | none, h => by
    simp only [reachOptStmt, mapOptStmt, namedExport_same]
  | some x, h => by
    simp only [plainOptStmt] at h
    have h1 := h
    simp only [reachOptStmt, mapOptStmt, namedExport_same, Stmt.reach_plain m x h1]
termination_by structural x => x
theorem reach_plainOptBindingElements (m : LeafMap) : ∀ (x : List (Option BindingElement)), plainOptBindingElements x → reachOptBindingElements m x = mapOptBindingElements m x
  | [], h => by
    simp only [reachOptBindingElements, mapOptBindingElements, namedExport_same]
  | x :: l, h => by
    simp only [plainOptBindingElements] at h
    obtain ⟨h1, h2⟩ := h
    simp only [reachOptBindingElements, mapOptBindingElements, namedExport_same, reach_plainOptBindingElement m x h1, reach_plainOptBindingElements m l h2]
termination_by structural x => x
end

end Fajt
