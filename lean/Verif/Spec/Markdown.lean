import Verif.Model.Markdown
/-!
# Specification for the snapshot files: what a well-formed document is

Only the data types of the model and `trim` are used here.
-/
namespace Fajt.Spec.Markdown
open Fajt.Markdown (CodeBlock Section trim)

/-- `p` occurs in `t` at the start of a line. -/
def StartsLine (p t : Str) : Prop :=
  ∃ pre post, t = pre ++ p ++ post ∧ (pre = [] ∨ ∃ q, pre = q ++ ['\n'])

/-- No line of `t` starts with `###` (a heading) or ` ``` ` (a fence). -/
def PlainLines (t : Str) : Prop := ¬ StartsLine c!"###" t ∧ ¬ StartsLine c!"```" t

/-- A block that can be written down: the language is one line without surrounding blanks and does not start with a fence, the
contents have no line that starts with a heading or a fence. -/
structure BlockOk (b : CodeBlock) : Prop where
  oneLine : '\n' ∉ b.language
  trimmed : trim b.language = b.language
  noFence : ¬ c!"```" <+: b.language
  contents : PlainLines b.contents

/-- A section that can be written down. -/
structure SectionOk (s : Section) : Prop where
  oneLine : '\n' ∉ s.name
  trimmed : trim s.name = s.name
  text : ∀ t, s.text = some t → t ≠ [] ∧ trim t = t ∧ PlainLines t
  block : ∀ b, s.block = some b → BlockOk b

/-- The contents with a final line feed. -/
def endLine (t : Str) : Str := if t.getLast? = some '\n' then t else t ++ ['\n']

/-- The section with a final line feed in its block. -/
def closeSection (s : Section) : Section :=
  { s with block := s.block.map fun b => { b with contents := endLine b.contents } }

end Fajt.Spec.Markdown
