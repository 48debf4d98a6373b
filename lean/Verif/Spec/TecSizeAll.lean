import Verif.Spec.Tec
/-!
# Specification: what becomes of arbitrary settings of a zone
-/
namespace Verif.Spec

/-- the judgement on the settings of one dimension -/
inductive Verdict
  | pass
  /-- refused, with the number of the message -/
  | refuse (n : Nat)
  /-- the sum of `Begin` and `End` is not an `int` -/
  | overflow
  deriving DecidableEq

def DimSel.verdict (d : DimSel) : Verdict :=
  if d.max = 0 then .refuse 0
  else if d.skip = 0 then .refuse 1
  else if ¬InI32 (d.head + d.tail) then .overflow
  else if d.max ≤ d.head + d.tail then .refuse 2
  else .pass

/-- `Max - Begin` and `Max - Begin - End` are `int` values -/
def DimSel.SpanFits (d : DimSel) : Prop := InI32 (d.max - d.head) ∧ InI32 (d.max - d.head - d.tail)

/-- the number that is taken for the real size: the number of selected indices, and for a negative stride `-k` with `n` points
left between head and tail, `-(n / k)`, one more if `k` does not divide `n` -/
def DimSel.real (d : DimSel) : Int :=
  if 0 < d.skip then d.count
  else if (d.max - d.head - d.tail) % (-d.skip) = 0 then -((d.max - d.head - d.tail) / (-d.skip))
  else 1 - (d.max - d.head - d.tail) / (-d.skip)

/-- the settings are `int` values -/
def DimSel.IsInt (d : DimSel) : Prop := InI32 d.max ∧ InI32 d.skip ∧ InI32 d.head ∧ InI32 d.tail

end Verif.Spec
