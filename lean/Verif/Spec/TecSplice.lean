import Verif.Base
/-!
# Specification: texts put in at marks
-/
namespace Verif.Spec

/-- `lines` are the lines `first`, then for every `z` of `zs` one `mark` and more lines; `text` is what comes out
if every mark is replaced by the text of its `z` -/
structure Woven {L Z C : Type} (mark : L) (line : L → List C) (zone : Z → List C) (lines : List L) (zs : List Z) (text : List C) where
  first : List L
  rest : List (List L)
  count : rest.length = zs.length
  clean : mark ∉ first ∧ ∀ l ∈ rest, mark ∉ l
  whole : lines = first ++ rest.flatMap fun l => mark :: l
  out : text = first.flatMap line ++ (zs.zip rest).flatMap fun p => zone p.1 ++ p.2.flatMap line

end Verif.Spec
