import Verif.Model.ParserBase
/-!
# Early errors (`/repo/parser/src/static_semantics/mod.rs`)
-/
namespace Fajt
variable [UnicodeID]

/-- `/repo/parser/src/static_semantics/mod.rs:11-29` `is_assignment_target_type_simple`. -/
def Expr.targetSimple (ctx : Ctx) : Expr → Except PErr Bool
  | .ident id =>
    if ctx.strict ∧ (id.name = c!"arguments" ∨ id.name = c!"eval") then
      .error (PErr.syn c!"Unexpected `eval` or `arguments` in strict mode" id.span)
    else .ok true
  | .member .. => .ok true
  | .paren _ e => e.targetSimple ctx
  | _ => .ok false
termination_by structural e => e

/-- `/repo/parser/src/static_semantics/mod.rs:31-43,45-54`: `early_errors_left_hand_side_expr` and
`early_errors_update_expr_argument` differ only in the message. -/
def Expr.earlyErrorsTarget (ctx : Ctx) (msg : Str) (e : Expr) : Except PErr Unit :=
  match e.targetSimple ctx with
  | .error err => .error err
  | .ok true => .ok ()
  | .ok false => .error (PErr.syn msg e.span)

/-- `/repo/parser/src/static_semantics/mod.rs:31-43` `early_errors_left_hand_side_expr`. -/
def Expr.earlyErrorsLhs (ctx : Ctx) (e : Expr) : Except PErr Unit :=
  e.earlyErrorsTarget ctx c!"Invalid left-hand side assignment"

/-- `/repo/parser/src/static_semantics/mod.rs:45-54` `early_errors_update_expr_argument`. -/
def Expr.earlyErrorsUpdate (ctx : Ctx) (e : Expr) : Except PErr Unit :=
  e.earlyErrorsTarget ctx c!"Invalid update expression argument"

/-- `/repo/parser/src/static_semantics/mod.rs:56-75` `early_errors_unary_delete`.  The test of `is_strict` is repeated at
every level of parentheses with the same result. -/
def Expr.earlyErrorsDelete (ctx : Ctx) : Expr → Except PErr Unit
  | .ident id =>
    if !ctx.strict then .ok ()
    else .error (PErr.syn c!"Delete of an unqualified identifier in strict mode" id.span)
  | .paren _ e => e.earlyErrorsDelete ctx
  | _ => .ok ()
termination_by structural e => e

/-- `/repo/parser/src/static_semantics/mod.rs:81-83` `contains_strict`. -/
def containsStrict (ds : List LitString) : Bool := ds.any fun s => s.value = c!"use strict"

/-- `/repo/parser/src/static_semantics/mod.rs:89-103` `get_bound_names`. -/
def BindingPattern.boundNames : BindingPattern → List Str
  | .ident id => [id.name]
  | .array .. => []
  | .object .. => []

/-- `/repo/parser/src/static_semantics/mod.rs:109-125` `is_simple`. -/
def FormalParams.isSimple : FormalParams → Bool
  | .mk _ bindings rest =>
    rest.isNone && bindings.all fun
      | .mk _ pattern initializer => initializer.isNone && (match pattern with
        | .ident _ => true
        | _ => false)

/-- `/repo/parser/src/static_semantics/mod.rs:127-139` `bound_names`. -/
def FormalParams.boundNames : FormalParams → List Str
  | .mk _ bindings rest =>
    (bindings.flatMap fun (.mk _ pattern _) => pattern.boundNames) ++ (match rest with
      | some p => p.boundNames
      | none => [])

/-- `str: Ord`: byte-wise lexicographic order of UTF-8, which is the lexicographic order of the code points. -/
def strLe : Str → Str → Bool
  | [], _ => true
  | _ :: _, [] => false
  | a :: as, b :: bs => if a.toNat < b.toNat then true else if b.toNat < a.toNat then false else strLe as bs

/-- Insertion into a sorted list. -/
def insertStr (a : Str) : List Str → List Str
  | [] => [a]
  | b :: bs => if strLe a b then a :: b :: bs else b :: insertStr a bs

/-- `sort_unstable` (`/repo/parser/src/static_semantics/mod.rs:156`): the order is total, so that the result of sorting does
not depend on the algorithm; insertion sort is used here. -/
def sortStrs : List Str → List Str
  | [] => []
  | a :: as => insertStr a (sortStrs as)

/-- `/repo/parser/src/static_semantics/mod.rs:206-218` `get_first_duplicate`. -/
def firstDuplicate : List Str → Option Str
  | a :: b :: rest => if a = b then some a else firstDuplicate (b :: rest)
  | _ => none

namespace FormalParams

/-- `Spanned::span`. -/
def span : FormalParams → Span
  | .mk sp _ _ => sp

/-- `/repo/parser/src/static_semantics/mod.rs:193-202` `early_errors_forbidden_use_strict`. -/
def earlyErrorsUseStrict (ps : FormalParams) (ds : List LitString) : Except PErr Unit :=
  if !ps.isSimple && containsStrict ds then
    .error (PErr.syn c!"Only name parameters allowed in method with \"use strict\"" ps.span)
  else .ok ()

/-- `/repo/parser/src/static_semantics/mod.rs:141-150` `early_errors_getter`. -/
def earlyErrorsGetter : FormalParams → Except PErr Unit
  | .mk sp bindings rest =>
    if !bindings.isEmpty || rest.isSome then
      .error (PErr.syn c!"Getter must not have any formal parameters" sp)
    else .ok ()

/-- `/repo/parser/src/static_semantics/mod.rs:152-171` `early_errors_method`. -/
def earlyErrorsMethod (ps : FormalParams) (ds : List LitString) : Except PErr Unit :=
  match ps.earlyErrorsUseStrict ds with
  | .error e => .error e
  | .ok () =>
    match firstDuplicate (sortStrs ps.boundNames) with
    | some d => .error (PErr.syn (c!"Found duplicate parameter '" ++ d ++ c!"', duplicates not allowed here") ps.span)
    | none => .ok ()

/-- `/repo/parser/src/static_semantics/mod.rs:173-191` `early_errors_setter`. -/
def earlyErrorsSetter (ps : FormalParams) (ds : List LitString) : Except PErr Unit :=
  match ps.earlyErrorsUseStrict ds, ps with
  | .error e, _ => .error e
  | .ok (), .mk sp bindings rest =>
    if rest.isSome then
      .error (PErr.syn c!"Setter function parameter must not be a rest parameter" sp)
    else if bindings.length ≠ 1 then
      .error (PErr.syn c!"Setter must have exactly one parameter" sp)
    else .ok ()

end FormalParams

/-- `/repo/ast/src/expr.rs:41-47` `is_nested_new`. -/
def Expr.isNestedNew : Expr → Bool
  | .new _ (.new ..) _ _ => true
  | _ => false

end Fajt
