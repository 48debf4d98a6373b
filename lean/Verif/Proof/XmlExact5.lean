import Verif.Proof.XmlExact4
import Verif.Proof.Xml8
import Verif.Model.Xml.Query
/-!
# Documents
-/
namespace Verif.Xml
open Tec Spec

theorem nodes_skip {w : Str} (hw : Blank w) (f : Nat) (doc : Bool) (cs : List Node) (s : Str) : parseNodes f doc cs (w ++ 60 :: s) = parseNodes f doc cs (60 :: s) := by
  cases f with
  | zero => rw [parseNodes, parseNodes]
  | succ f =>
    have : identify (w ++ 60 :: s) = identify (60 :: s) := by
      have e : skipSpace (60 :: s) = 60 :: s := skipSpace_cons (by decide) _
      unfold identify
      simp only
      rw [skip_tag hw, e]
      rw [show strip (lit "<") (60 :: s) = some s from strip_append [60] _]
    rw [parseNodes, parseNodes, this]

/-- what a document consists of -/
theorem parse_open {s : Str} {w : Str} (hw : Blank w) (hn : NoNul s) :
    parse (w ++ 60 :: s) = match (parseNodes (w ++ 60 :: s).length true [] (w ++ 60 :: s)).kids with
      | some cs => .ok cs
      | none => match parseNodes (w ++ 60 :: s).length true [] (w ++ 60 :: s) with | .failed e => .error e | _ => .error .parsing := by
  have hnul : NoNul (w ++ 60 :: s) := noNul_append (blank_noNul hw) (by
    intro b hb
    rcases List.mem_cons.1 hb with rfl | hb
    · decide
    · exact hn b hb)
  unfold parse
  simp only
  rw [cstr_plain hnul, skip_tag hw, show strip [239, 187, 191] (60 :: s) = none from strip_ne _ _ (by decide), Option.getD_none, if_neg (by simp),
    nodes_skip hw, (parseNodes_fuel _ (60 :: s) (le_refl _) true []).1 (w ++ 60 :: s).length (60 :: s).length (by simp) (le_refl _)]
  cases parseNodes (60 :: s).length true [] (60 :: s) <;> rfl

theorem start_ok {s w : Str} (hw : Blank w) (hn : NoNul s) {L : List Node} :
    parse (w ++ 60 :: s) = .ok L ↔ (parseNodes (w ++ 60 :: s).length true [] (w ++ 60 :: s)).kids = some L := by
  rw [parse_open hw hn]
  cases e : parseNodes (w ++ 60 :: s).length true [] (w ++ 60 :: s) with
  | failed e => simp [Ended.kids]
  | atEnd cs => simp [Ended.kids]
  | byTag cs n r => simp [Ended.kids]

theorem Exact.kids {x : Node} {t : Str} {P : Prop} (h : Exact [x] t P) {w : Str} (hw : Blank w) (f : Nat) (doc : Bool) (cs : List Node) (hf : (w ++ t).length ≤ f) :
    (P → (parseNodes f doc cs (w ++ t)).kids = some (cs ++ [x])) ∧
    ∀ L, (parseNodes f doc cs (w ++ t)).kids = some L → cs ++ [x] <+: L → P := by
  have e : w ++ (t ++ []) = w ++ t := by rw [List.append_nil]
  constructor
  · intro p
    obtain ⟨w', hw', -, h2⟩ := h.fwd p w hw
    have := h2 f doc cs [] (by rw [e]; exact hf)
    rw [e, List.append_nil] at this
    rw [this, nodes_blank hw']
    rfl
  · intro L hk hp
    exact h.bwd w hw f doc cs [] L (by rw [e]; exact hf) (by rw [e]; exact hk) hp

/-- a document without a declaration -/
theorem Exact.parse {x : Node} {w s : Str} {P : Prop} (hw : Blank w) (h : Exact [x] (w ++ 60 :: s) P) : parse (w ++ 60 :: s) = .ok [x] ↔ P := by
  have hn : NoNul s := fun b hb => h.clean b (by simp [hb])
  rw [start_ok hw hn]
  have := h.kids blank_nil (w ++ 60 :: s).length true [] (le_refl _)
  rw [List.nil_append] at this
  exact ⟨fun e => this.2 _ e (List.prefix_refl _), this.1⟩

/-- what is left to read behind a declaration -/
theorem decl_kids {v t : Str} (hv : ∀ b ∈ v, b ≠ 0 ∧ b ≠ 13 ∧ b ≠ 63) (ht : NoNul t) : ∃ f, t.length ≤ f ∧ ∀ L,
    Xml.parse (lit "<?" ++ (v ++ (lit "?>" ++ t))) = .ok L ↔ (parseNodes f true [.decl v] t).kids = some L := by
  obtain ⟨f, hf⟩ : ∃ f, ([] ++ 60 :: 63 :: (v ++ (lit "?>" ++ t))).length = f + 1 := ⟨_, rfl⟩
  refine ⟨f, by simp [lit] at hf; omega, fun L => ?_⟩
  have := start_ok (s := 63 :: (v ++ (lit "?>" ++ t))) (w := []) blank_nil (L := L) (by
    intro b hb
    rcases List.mem_cons.1 hb with rfl | hb
    · decide
    · refine noNul_append (fun b hb => (hv b hb).1) (noNul_append (by unfold NoNul; decide) ht) b hb)
  refine this.trans ?_
  rw [hf, parseNodes, show ([] : Str) ++ 60 :: 63 :: (v ++ (lit "?>" ++ t)) = lit "<?" ++ (v ++ (lit "?>" ++ t)) from rfl, identify_decl]
  simp only
  rw [show parseText (lit "?>") (v ++ (lit "?>" ++ t)) = some (v, t) from parseText_one (fun hh => (hv 63 hh).2.2 rfl) [62] _]
  simp only
  rw [if_pos (by rfl), value_plain false fun b hb => ⟨(hv b hb).1, (hv b hb).2.1, fun hh => by cases hh⟩]
  rfl

/-- a document with a declaration -/
theorem Exact.parseDecl {x : Node} {v w t : Str} {P : Prop} (hv : ∀ b ∈ v, b ≠ 0 ∧ b ≠ 13 ∧ b ≠ 63) (hw : Blank w) (h : Exact [x] t P) :
    Xml.parse (lit "<?" ++ (v ++ (lit "?>" ++ (w ++ t)))) = .ok [.decl v, x] ↔ P := by
  obtain ⟨f, hf, e⟩ := decl_kids hv (noNul_append (blank_noNul hw) h.clean)
  rw [e]
  have := h.kids hw f true [.decl v] hf
  exact ⟨fun e => this.2 _ e (List.prefix_refl _), this.1⟩

/-- the element that is found by its name is the one at the start -/
theorem Exact.load {w k v q : Str} {n : Str} (hw : Blank w) (hn : IsName n) (hk : IsName k) {f : Nat} {doc : Bool} {cs L : List Node} (hcs : firstNamed n cs = none)
    {x : Node} (h : (parseNodes f doc cs (w ++ 60 :: (n ++ (32 :: (k ++ 61 :: 34 :: (cstr v ++ 34 :: 62 :: q)))))).kids = some L)
    (hx : firstNamed n L = some x) : cs ++ [x] <+: L := by
  obtain ⟨M, rfl⟩ := nodes_grow _ _ _ _ _ h
  have split : ∀ l : List Node, firstNamed n (cs ++ l) = firstNamed n l := by
    intro l
    unfold firstNamed at hcs ⊢
    rw [List.find?_append, hcs]
    rfl
  rw [split] at hx
  cases M with
  | nil => cases hx
  | cons y M =>
    obtain ⟨g, -, hfirst⟩ := first_node (x := y) h (by simp)
    obtain ⟨b, l, e, hb⟩ := name_start hn
    have hi := identify_elem hw (nameStart_ne hb).2.1 (nameStart_ne hb).2.2.1 (l ++ (32 :: (k ++ 61 :: 34 :: (cstr v ++ 34 :: 62 :: q))))
    rw [← List.cons_append, ← e] at hi
    have htag := (tag_attr (v := v) hn hk q).2
    have hy : ∃ as ks, y = .elem n as ks := by
      cases hfirst with
      | closed i t =>
        rw [hi] at i
        cases i
        rw [(htag _ _ _ _ t).1]
        exact ⟨_, _, rfl⟩
      | opened i t k =>
        rw [hi] at i
        cases i
        rw [(htag _ _ _ _ t).1]
        exact ⟨_, _, rfl⟩
      | comment _ i => rw [hi] at i; cases i
      | decl _ i => rw [hi] at i; cases i
      | cdata _ i => rw [hi] at i; cases i
      | unknown _ i => rw [hi] at i; cases i
      | text i _ => rw [hi] at i; cases i
    obtain ⟨as, ks, rfl⟩ := hy
    have : x = .elem n as ks := by
      unfold firstNamed at hx
      rw [List.find?_cons] at hx
      simp [Node.named, Node.isElem, Node.name] at hx
      exact hx.symm
    rw [this]
    simp

/-- the text of a file starts with the tag of its element -/
theorem fileText_start (F : Fmt) (d : Nat) (l : FileLog) : ∃ q, fileText F d l =
    List.replicate d 9 ++ 60 :: (lit "File" ++ (32 :: (lit "FileName" ++ 61 :: 34 :: (cstr l.FileName ++ 34 :: 62 :: q)))) := by
  unfold fileText fileHead
  simp only [List.cons_append, ttext_cons, List.append_assoc]
  unfold tline
  have hc : cstr (lit "<File FileName=\"" ++ (cstr l.FileName ++ lit "\">")) = lit "<File FileName=\"" ++ (cstr l.FileName ++ lit "\">") :=
    cstr_plain (noNul_append (by unfold NoNul; decide) (noNul_append (cstr_noNul _) (by unfold NoNul; decide)))
  rw [hc]
  simp only [List.append_assoc]
  exact ⟨_, rfl⟩

end Verif.Xml
