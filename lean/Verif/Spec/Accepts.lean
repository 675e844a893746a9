import Verif.Model.Parser
import Verif.Spec.Text
/-!
# Accepted sources, and kinds of nodes
-/
namespace Fajt
variable [UnicodeID]

/-- `parse_script` or `parse_module` accepts the source and returns the tree. -/
inductive Accepts : SourceType → Str → Program → Prop
  | script {src : Str} {p : Program} {s : PState} : Parser.parseScript src = .ok p s → Accepts .script src p
  | module {src : Str} {p : Program} {s : PState} : Parser.parseModule src = .ok p s → Accepts .module src p


namespace Spec

/-- The node is a function or function declaration (not an arrow function, not a method). -/
def isFunction : Node → Prop
  | .expr (.function ..) => True
  | .stmt (.functionDecl ..) => True
  | _ => False

/-- The node is a class that extends another one. -/
def extendsClass : Node → Prop
  | .expr (.classE _ _ sup _) => sup.isSome = true
  | .stmt (.classDecl _ _ sup _) => sup.isSome = true
  | _ => False

/-- The code of the node is that of a generator. -/
def isGenerator : Node → Prop
  | .expr (.function _ _ generator _ _ _) => generator = true
  | .stmt (.functionDecl _ _ generator _ _ _) => generator = true
  | .method (.mk _ _ _ _ _ generator _ _) => generator = true
  | _ => False

/-- The code of the node is asynchronous. -/
def isAsync : Node → Prop
  | .expr (.function _ asynchronous _ _ _ _) => asynchronous = true
  | .stmt (.functionDecl _ asynchronous _ _ _ _) => asynchronous = true
  | .method (.mk _ _ _ _ _ _ asynchronous _) => asynchronous = true
  | .expr (.arrow _ asynchronous _ _ _) => asynchronous = true
  | _ => False

end Spec
end Fajt
