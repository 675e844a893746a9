import Verif.Spec.TreeMaps
/-!
# Visitors that change leaves
-/
namespace Fajt

/-- Identifiers, strings, numbers and operators. -/
def Kind.isLeaf : Kind → Bool
  | .ident => true
  | .litString => true
  | .litNumber => true
  | .binaryOperator => true
  | .logicalOperator => true
  | .assignmentOperator => true
  | .unaryOperator => true
  | .updateOperator => true
  | _ => false

/-- The visitor descends everywhere, the two hooks of a leaf together change it like `m`, and the hooks of other nodes do not change
the node. -/
def Rewrites {σ : Type} (v : MVisitor σ) (m : LeafMap) : Prop :=
  ∀ (k : Kind) (a : k.Val) (s : σ),
    (v.enter k a s).1 = true ∧
    (k.isLeaf = true → ∀ s', (v.exit k (v.enter k a s).2.1 s').1 = k.mapLeaves m a) ∧
    (k.isLeaf = false → (v.enter k a s).2.1 = a ∧ (v.exit k a s).1 = a)

/-- A visitor that renames in its exit hooks. -/
def LeafMap.visitor (m : LeafMap) : MVisitor Unit where
  enter _ a s := (true, a, s)
  exit k a s := (if k.isLeaf then k.mapLeaves m a else a, s)

end Fajt
