import Verif.Model.Basic
/-!
# Backslash escapes in strings and templates
-/
namespace Fajt.Spec
open Fajt

/-- After the text `u` a backslash is pending: the next character is escaped. -/
def Escaped (u : Str) : Prop := u.foldl (fun pending c => !pending && c == '\\') false = true

instance (u : Str) : Decidable (Escaped u) := inferInstanceAs (Decidable (_ = true))

/-- The text with every escaping backslash removed; nothing is decoded. -/
def unescape : Str → Str
  | '\\' :: c :: w => c :: unescape w
  | c :: w => c :: unescape w
  | [] => []

end Fajt.Spec
