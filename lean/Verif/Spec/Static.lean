import Verif.Model.ParserBase
/-!
# Early error rules, stated on the tree
-/
namespace Fajt.Spec

/-- The valid simple assignment targets: names and member accesses, possibly in parentheses. -/
inductive Target : Expr → Prop
  | ident (id : Ident) : Target (.ident id)
  | member (sp : Span) (o : MemberObject) (p : MemberProp) : Target (.member sp o p)
  | paren {sp : Span} {e : Expr} : Target e → Target (.paren sp e)

/-- The name under any number of parentheses. -/
inductive Names : Expr → Ident → Prop
  | ident (id : Ident) : Names (.ident id) id
  | paren {sp : Span} {e : Expr} {id : Ident} : Names e id → Names (.paren sp e) id

/-- The names that strict code must not assign to. -/
def evalOrArguments (id : Ident) : Prop := id.name = c!"eval" ∨ id.name = c!"arguments"

/-- What may be assigned to in code that is strict or not. -/
def TargetOK (strict : Bool) (e : Expr) : Prop :=
  Target e ∧ (strict = true → ∀ id, Names e id → ¬ evalOrArguments id)

/-- What may be the operand of `delete`. -/
def DeleteOK (strict : Bool) (e : Expr) : Prop := strict = true → ∀ id, ¬ Names e id

/-- A simple parameter list: every parameter is `name` alone and there is no rest parameter. -/
inductive SimpleParams : FormalParams → Prop
  | intro (sp : Span) (params : List (Span × Ident)) :
      SimpleParams (.mk sp (params.map fun p => .mk p.1 (.ident p.2) none) none)

/-- No "use strict" directive unless the parameters are simple. -/
def UseStrictOK (ps : FormalParams) (ds : List LitString) : Prop :=
  SimpleParams ps ∨ ∀ d ∈ ds, d.value ≠ c!"use strict"

/-- The name of a pattern that is just a name. -/
def plainName : BindingPattern → Option Str
  | .ident id => some id.name
  | _ => none

/-- The pattern of a binding element. -/
def patternOf : BindingElement → BindingPattern
  | .mk _ p _ => p

/-- The parameters that are just names. -/
def plainNames : FormalParams → List Str
  | .mk _ bs rest => (bs.map patternOf ++ rest.toList).filterMap plainName

/-- The rules for the parameters of methods, getters and setters. -/
def ParamsOK : MethodKind → FormalParams → List LitString → Prop
  | .method, ps, ds => UseStrictOK ps ds ∧ (plainNames ps).Nodup
  | .get, .mk _ bs rest, _ => bs = [] ∧ rest = none
  | .set, .mk sp bs rest, ds => (∃ b, bs = [b]) ∧ rest = none ∧ UseStrictOK (.mk sp bs rest) ds

end Fajt.Spec
