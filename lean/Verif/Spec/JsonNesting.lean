import Verif.Model.Serde
/-!
# The nesting of a JSON value
-/
namespace Fajt.Spec

mutual
/-- How deeply arrays and objects are nested in the value. -/
def nesting : Json → Nat
  | .arr vs => 1 + nestingItems vs
  | .obj kvs => 1 + nestingFields kvs
  | _ => 0
@[inherit_doc nesting]
def nestingItems : List Json → Nat
  | [] => 0
  | v :: vs => max (nesting v) (nestingItems vs)
@[inherit_doc nesting]
def nestingFields : List (Str × Json) → Nat
  | [] => 0
  | (_, v) :: kvs => max (nesting v) (nestingFields kvs)
end

end Fajt.Spec
