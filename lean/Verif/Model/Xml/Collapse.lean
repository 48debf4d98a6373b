import Verif.Model.Xml.InPlace
/-!
# Collapsing white space — tinyxml2.cpp:238-262, 358-360, 1144-1146

A document that is constructed with `COLLAPSE_WHITESPACE` reads a file as `Verif.Model.Xml.InPlace` says; only its texts (not CDATA sections,
attributes, comments ...) have one more flag, `NEEDS_WHITESPACE_COLLAPSING`, so that `GetStr` goes over them once more, again at
the place where they stand.
-/
namespace Verif.Xml.InPlace
open Tec

/-- the loop of `StrPair::CollapseWhitespace` — tinyxml2.cpp:249-260: `p` reads, `q` writes; the last place of `q` -/
def collapseLoop : Nat → Nat → Nat → B Nat
  | 0, _, _ => M.undef .overflow
  | f + 1, p, q => do
    let c ← rd p
    if c = 0 then pure q
    else if isSpace c then do
      let g ← rounds
      let p ← skip g p
      let c ← rd p
      if c = 0 then pure q
      else do
        wr q 32
        let c ← rd p
        wr (q + 1) c
        collapseLoop f (p + 1) (q + 2)
    else do
      wr q c
      collapseLoop f (p + 1) (q + 1)

/-- `StrPair::CollapseWhitespace` — tinyxml2.cpp:238-262: `_start` afterwards -/
def collapseB (p : Nat) : B Nat := do
  let f ← rounds
  let p ← skip f p
  let c ← rd p
  if c = 0 then pure p
  else do
    let q ← collapseLoop f p p
    wr q 0
    pure p

/-- `StrPair::GetStr` with `NEEDS_WHITESPACE_COLLAPSING` (`c`) or without — tinyxml2.cpp:267-365 -/
def getStrC (c : Bool) (s : StrPair) : B StrPair :=
  if s.flush then do
    let s ← getStr s
    if c then do
      let p ← collapseB s.start
      pure { s with start := p }
    else pure s
  else pure s

/-- `Name()`, `Value()` -/
def askC (c : Bool) (s : StrPair) : B (StrPair × Str) := do
  let s ← getStrC c s
  let f ← rounds
  let v ← readC f s.start
  pure (s, v)

end Verif.Xml.InPlace
