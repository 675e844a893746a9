import Verif.Model.Serde
/-!
# Strings in serialised trees
-/
namespace Fajt

/-- The string is (or is part of) the value, as a value (not as the name of a field). -/
inductive Json.Has (s : Str) : Json → Prop
  | str : Has s (.str s)
  | elem {v : Json} {vs : List Json} : v ∈ vs → Has s v → Has s (.arr vs)
  | field {k : Str} {v : Json} {kvs : List (Str × Json)} : (k, v) ∈ kvs → Has s v → Has s (.obj kvs)

end Fajt
