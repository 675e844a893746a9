import Verif.Proofs.SerdeTrip
/-!
# Deserialising a serialised program
-/
namespace Fajt
open Serde

theorem Program.trip (p : Program) (h : p.AllSpans Small) : Program.fromJson p.toJson = .ok p := by
  have hl : decode (.obj [(c!"span", p.span.toJson), (c!"directives", .arr (p.directives.map (fun x => x.toJson))), (c!"body", .arr (serStmts p.body))])
      (.struct .StmtList) = .ok (p.span, p.directives, p.body) :=
    struct_ok (s := .StmtList) (r := (p.span, p.directives, p.body, ()))
      (.cons (span_trip h.1) (.cons (litStrings_trip _) (.cons (arr_trip (tripStmts _ h.2)) .nil))) (by decide)
  obtain ⟨ty, sp, ds, b⟩ := p
  cases ty
  · exact new_ok (e := .Program) (k := c!"Module") (t := .struct .StmtList) (f := fun (s, d, b) => ⟨.module, s, d, b⟩) rfl hl
  · exact new_ok (e := .Program) (k := c!"Script") (t := .struct .StmtList) (f := fun (s, d, b) => ⟨.script, s, d, b⟩) rfl hl

end Fajt
