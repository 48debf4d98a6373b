import Verif.Model.Xml.Stack
import Verif.Spec.XmlStack
import Verif.Proof.Xml8
/-!
# How much stack the reader needs
-/
namespace Verif.Xml.Stack
open Tec Spec

theorem heightAll_append (a b : List Node) : heightAll (a ++ b) = max (heightAll a) (heightAll b) := by
  induction a with
  | nil => rw [List.nil_append, heightAll]; omega
  | cons x a ih => rw [List.cons_append, heightAll, heightAll, ih]; omega

theorem innerAll_append (a b : List Node) : innerAll (a ++ b) = max (innerAll a) (innerAll b) := by
  induction a with
  | nil => rw [List.nil_append, innerAll]; omega
  | cons x a ih => rw [List.cons_append, innerAll, innerAll, ih]; omega

theorem inner_le_elem (n : Str) (as : List (Str × Str)) (ks : List Node) : inner (.elem n as ks) ≤ innerAll ks + 1 := by
  cases ks with
  | nil => rw [inner]; omega
  | cons c ks => rw [inner]

/-- what a list of children, read behind those before, says about the stack -/
def Needs (d : Nat) (cs : List Node) (ns : List Node) (o : Option Ended) : Prop :=
  ∃ new, ns = cs ++ new ∧ (heightAll new ≤ d → o.isSome = true) ∧ (d < innerAll new → o = none)

def Fits (d : Nat) (cs : List Node) (a : Ended) (o : Option Ended) : Prop :=
  (∀ e, o = some e → e = a) ∧
  match a with
  | .atEnd ns => Needs d cs ns o
  | .byTag ns _ _ => Needs d cs ns o
  | .failed _ => True

theorem Fits.same (d : Nat) {cs : List Node} {a : Ended} (h : ∀ ns m r, a = .atEnd ns ∨ a = .byTag ns m r → ns = cs) : Fits d cs a (some a) := by
  refine ⟨fun e h => (Option.some.inj h).symm, ?_⟩
  have key : ∀ ns, ns = cs → Needs d cs ns (some a) := fun ns e => ⟨[], by rw [e]; simp, fun _ => rfl, fun h => by rw [innerAll] at h; omega⟩
  cases a with
  | atEnd ns => exact key ns (h ns [] [] (.inl rfl))
  | byTag ns m r => exact key ns (h ns m r (.inr rfl))
  | failed e => trivial

theorem Needs.cons {d : Nat} {cs : List Node} {x : Node} {ns : List Node} {o : Option Ended} (h : Needs d (cs ++ [x]) ns o)
    (hx : inner x ≤ d) : Needs d cs ns o := by
  obtain ⟨new, h1, h2, h3⟩ := h
  refine ⟨x :: new, by rw [h1]; simp, fun hh => h2 ?_, fun hh => h3 ?_⟩
  · rw [heightAll] at hh; omega
  · rw [innerAll] at hh; omega

theorem Fits.cons {d : Nat} {cs : List Node} {x : Node} {a : Ended} {o : Option Ended} (h : Fits d (cs ++ [x]) a o) (hx : inner x ≤ d) :
    Fits d cs a o := by
  obtain ⟨h1, h2⟩ := h
  refine ⟨h1, ?_⟩
  cases a with
  | atEnd ns => exact h2.cons hx
  | byTag ns m r => exact h2.cons hx
  | failed e => trivial

/-- an exhausted stack after an element that needs it -/
theorem Fits.out {d : Nat} {cs : List Node} {x : Node} {f : Nat} {doc : Bool} {r : Str} (hx : d < height x)
    (ext : ∀ ns m r', parseNodes f doc (cs ++ [x]) r = .atEnd ns ∨ parseNodes f doc (cs ++ [x]) r = .byTag ns m r' → ∃ new, ns = cs ++ [x] ++ new) :
    Fits d cs (parseNodes f doc (cs ++ [x]) r) none := by
  refine ⟨fun e h => (by cases h), ?_⟩
  have key : ∀ ns, (∃ new, ns = cs ++ [x] ++ new) → Needs d cs ns none := by
    rintro ns ⟨new, rfl⟩
    refine ⟨x :: new, by simp, fun hh => ?_, fun _ => rfl⟩
    rw [heightAll] at hh; omega
  cases hp : parseNodes f doc (cs ++ [x]) r with
  | atEnd ns => exact key ns (ext ns [] [] (.inl hp))
  | byTag ns m r' => exact key ns (ext ns m r' (.inr hp))
  | failed e => trivial

/-- reading only adds children -/
theorem parseNodes_adds (f : Nat) : ∀ {doc : Bool} {cs : List Node} {p : Str} (ns : List Node) (m r : Str),
    parseNodes f doc cs p = .atEnd ns ∨ parseNodes f doc cs p = .byTag ns m r → ∃ new, ns = cs ++ new := by
  induction f with
  | zero =>
    intro doc cs p ns m r h
    rw [parseNodes] at h
    rcases h with h | h
    · cases h; exact ⟨[], by simp⟩
    · cases h
  | succ f ih =>
    intro doc cs p ns m r h
    have go : ∀ {x : Node} {q : Str}, parseNodes f doc (cs ++ [x]) q = .atEnd ns ∨ parseNodes f doc (cs ++ [x]) q = .byTag ns m r →
        ∃ new, ns = cs ++ new := by
      intro x q hq
      obtain ⟨new, e⟩ := ih ns m r hq
      exact ⟨x :: new, by rw [e]; simp⟩
    have stop : ∀ {e : Code}, (Ended.failed e = .atEnd ns ∨ Ended.failed e = .byTag ns m r) → ∃ new, ns = cs ++ new := by
      intro e hq; rcases hq with hq | hq <;> cases hq
    rw [parseNodes] at h
    cases hi : identify p with
    | none => rw [hi] at h; rcases h with h | h <;> cases h; exact ⟨[], by simp⟩
    | some y =>
      obtain ⟨k, q⟩ := y
      rw [hi] at h
      cases k with
      | comment =>
        simp only at h
        cases e : parseText (lit "-->") q with
        | none => rw [e] at h; exact stop h
        | some z => rw [e] at h; exact go h
      | decl =>
        simp only at h
        cases e : parseText (lit "?>") q with
        | none => rw [e] at h; exact stop h
        | some z =>
          rw [e] at h
          simp only at h
          split at h
          · exact go h
          · exact stop h
      | cdata =>
        simp only at h
        cases e : parseText (lit "]]>") q with
        | none => rw [e] at h; exact stop h
        | some z => rw [e] at h; exact go h
      | unknown =>
        simp only at h
        cases e : parseText (lit ">") q with
        | none => rw [e] at h; exact stop h
        | some z => rw [e] at h; exact go h
      | text =>
        simp only at h
        cases e : parseText (lit "<") q with
        | none => rw [e] at h; exact stop h
        | some z =>
          rw [e] at h
          simp only at h
          split at h
          · exact stop h
          · exact go h
      | elem =>
        simp only at h
        cases e : parseTag q with
        | error c => rw [e] at h; exact stop h
        | ok z =>
          obtain ⟨n, as, c, r1⟩ := z
          rw [e] at h
          cases c with
          | closing => rcases h with h | h <;> cases h; exact ⟨[], by simp⟩
          | closed => exact go h
          | opened =>
            simp only at h
            split at h
            · exact stop h
            · cases e2 : parseNodes f false [] r1 with
              | failed c => rw [e2] at h; exact stop h
              | atEnd l => rw [e2] at h; exact stop h
              | byTag l m' r2 =>
                rw [e2] at h
                simp only at h
                split at h
                · exact go h
                · exact stop h

theorem nodesS_fits (f : Nat) : ∀ {d : Nat} {doc : Bool} {cs : List Node} {p : Str}, Fits d cs (parseNodes f doc cs p) (nodesS d f doc cs p) := by
  induction f with
  | zero => intro d doc cs p; rw [parseNodes, nodesS]; exact .same d fun ns m r h => by rcases h with h | h <;> cases h; rfl
  | succ f ih =>
    intro d doc cs p
    have stop : ∀ {e : Code}, Fits d cs (.failed e) (some (.failed e)) := .same d fun ns m r h => by rcases h with h | h <;> cases h
    rw [parseNodes, nodesS]
    cases hi : identify p with
    | none => exact .same d fun ns m r h => by rcases h with h | h <;> cases h; rfl
    | some y =>
      obtain ⟨k, q⟩ := y
      cases k with
      | comment =>
        simp only
        cases e : parseText (lit "-->") q with
        | none => exact stop
        | some z => exact ih.cons (by simp [inner])
      | decl =>
        simp only
        cases e : parseText (lit "?>") q with
        | none => exact stop
        | some z =>
          simp only
          split
          · exact ih.cons (by simp [inner])
          · exact stop
      | cdata =>
        simp only
        cases e : parseText (lit "]]>") q with
        | none => exact stop
        | some z => exact ih.cons (by simp [inner])
      | unknown =>
        simp only
        cases e : parseText (lit ">") q with
        | none => exact stop
        | some z => exact ih.cons (by simp [inner])
      | text =>
        simp only
        cases e : parseText (lit "<") q with
        | none => exact stop
        | some z =>
          simp only
          split
          · exact stop
          · exact ih.cons (by simp [inner])
      | elem =>
        simp only
        cases e : parseTag q with
        | error c => exact stop
        | ok z =>
          obtain ⟨n, as, c, r1⟩ := z
          cases c with
          | closing => exact .same d fun ns m r h => by rcases h with h | h <;> cases h; rfl
          | closed => exact ih.cons (by simp [inner])
          | opened =>
            simp only
            by_cases hr : r1 = []
            · rw [if_pos hr, if_pos hr]; exact stop
            · rw [if_neg hr, if_neg hr]
              cases d with
              | zero =>
                simp only
                cases e2 : parseNodes f false [] r1 with
                | failed c => exact ⟨fun e h => (by cases h), trivial⟩
                | atEnd l => exact ⟨fun e h => (by cases h), trivial⟩
                | byTag l m' r2 =>
                  simp only
                  by_cases hm : m' = n
                  · rw [if_pos hm]
                    exact .out (by rw [height]; omega) (fun ns m r h => parseNodes_adds f ns m r h)
                  · rw [if_neg hm]; exact ⟨fun e h => (by cases h), trivial⟩
              | succ d =>
                simp only
                have hk := ih (d := d) (doc := false) (cs := []) (p := r1)
                cases e3 : nodesS d f false [] r1 with
                | none =>
                  rw [e3] at hk
                  cases e2 : parseNodes f false [] r1 with
                  | failed c => exact ⟨fun e h => (by cases h), trivial⟩
                  | atEnd l => exact ⟨fun e h => (by cases h), trivial⟩
                  | byTag l m' r2 =>
                    rw [e2] at hk
                    obtain ⟨-, new, h1, h2, -⟩ := hk
                    rw [List.nil_append] at h1
                    subst h1
                    have hh : d < heightAll l := by
                      by_contra hc
                      have := h2 (by omega)
                      cases this
                    simp only
                    by_cases hm : m' = n
                    · rw [if_pos hm]
                      exact .out (by rw [height]; omega) (fun ns m r h => parseNodes_adds f ns m r h)
                    · rw [if_neg hm]; exact ⟨fun e h => (by cases h), trivial⟩
                | some b =>
                  rw [e3] at hk
                  obtain rfl := hk.1 b rfl
                  cases e2 : parseNodes f false [] r1 with
                  | failed c => exact stop
                  | atEnd l => exact stop
                  | byTag l m' r2 =>
                    rw [e2] at hk
                    obtain ⟨-, new, h1, -, h3⟩ := hk
                    rw [List.nil_append] at h1
                    subst h1
                    have hh : innerAll l ≤ d := by
                      by_contra hc
                      have := h3 (by omega)
                      cases this
                    simp only
                    by_cases hm : m' = n
                    · rw [if_pos hm, if_pos hm]
                      exact ih.cons ((inner_le_elem n as l).trans (by omega))
                    · rw [if_neg hm, if_neg hm]; exact stop

/-- the reader on a stack: for the document and what is left of its text -/
theorem parseS_fits (d : Nat) (content : Str) :
    (∀ x, parseS d content = some x → x = parse content) ∧
    ∀ ns, parse content = .ok ns → (heightAll ns ≤ d → parseS d content = some (.ok ns)) ∧ (d < innerAll ns → parseS d content = none) := by
  unfold parseS parse
  simp only
  generalize (strip [0xEF, 0xBB, 0xBF] (skipSpace (cstr content))).getD (skipSpace (cstr content)) = p
  by_cases hp : p = []
  · rw [if_pos hp, if_pos hp]
    exact ⟨fun x h => (Option.some.inj h).symm, fun ns h => by cases h⟩
  · rw [if_neg hp, if_neg hp]
    have hf := nodesS_fits p.length (d := d) (doc := true) (cs := []) (p := p)
    cases e : nodesS d p.length true [] p with
    | none =>
      rw [e] at hf
      refine ⟨fun x h => (by cases h), fun ns h => ⟨fun hh => ?_, fun _ => rfl⟩⟩
      have key : ∀ {l : List Node}, Needs d [] l none → l = ns → False := by
        rintro l ⟨new, h1, h2, -⟩ rfl
        rw [List.nil_append] at h1
        subst h1
        cases h2 hh
      cases e2 : parseNodes p.length true [] p with
      | atEnd l => rw [e2] at h hf; exact (key hf.2 (Except.ok.inj h)).elim
      | byTag l m r => rw [e2] at h hf; exact (key hf.2 (Except.ok.inj h)).elim
      | failed c => rw [e2] at h; cases h
    | some b =>
      rw [e] at hf
      obtain rfl := hf.1 b rfl
      have key : ∀ {l : List Node} {b : Ended}, Needs d [] l (some b) → d < innerAll l → False := by
        rintro l b ⟨new, h1, -, h3⟩ hh
        rw [List.nil_append] at h1
        subst h1
        cases h3 hh
      cases e2 : parseNodes p.length true [] p with
      | atEnd l =>
        rw [e2] at hf
        refine ⟨fun x h => (Option.some.inj h).symm, fun ns h => ⟨fun _ => by rw [← h], fun hh => ?_⟩⟩
        cases h; exact (key hf.2 hh).elim
      | byTag l m r =>
        rw [e2] at hf
        refine ⟨fun x h => (Option.some.inj h).symm, fun ns h => ⟨fun _ => by rw [← h], fun hh => ?_⟩⟩
        cases h; exact (key hf.2 hh).elim
      | failed c => exact ⟨fun x h => (Option.some.inj h).symm, fun ns h => by cases h⟩

/-! ## Small files -/

/-- an opening tag has three bytes at least -/
theorem parseTag_two {p n : Str} {as : List (Str × Str)} {c : Closing} {r : Str} (h : parseTag p = .ok (n, as, c, r)) : r.length + 2 ≤ p.length := by
  unfold parseTag at h
  simp only at h
  have h1 := skipSpace_length p
  have h2 : ((strip [47] (skipSpace p)).getD (skipSpace p)).length ≤ (skipSpace p).length := by
    cases e : strip [47] (skipSpace p) with
    | none => simp
    | some q => have := strip_length e; simp at this ⊢; omega
  split at h
  · cases h
  · rename_i n' q e
    have h3 := parseName_length e
    split at h
    · cases h
    · rename_i as' sl r' e2
      cases h
      have := parseAttrs_length _ e2
      omega

theorem nodesS_small (f : Nat) : ∀ {d : Nat} {doc : Bool} {cs : List Node} {p : Str}, p.length ≤ 3 * (d + 1) → nodesS d f doc cs p ≠ none := by
  induction f with
  | zero => intro d doc cs p _; rw [nodesS]; simp
  | succ f ih =>
    intro d doc cs p hp
    rw [nodesS]
    cases hi : identify p with
    | none => simp
    | some y =>
      obtain ⟨k, q⟩ := y
      have hl := identify_length hi
      have hq : q.length ≤ p.length := by rcases hl with h | h <;> [exact Nat.le_of_lt h.2; rw [h.2.1]]
      cases k with
      | comment =>
        simp only
        cases e : parseText (lit "-->") q with
        | none => simp
        | some z => have := parseText_length (v := z.1) (r := z.2) e; exact ih (by omega)
      | decl =>
        simp only
        cases e : parseText (lit "?>") q with
        | none => simp
        | some z =>
          have := parseText_length (v := z.1) (r := z.2) e
          simp only
          split
          · exact ih (by omega)
          · simp
      | cdata =>
        simp only
        cases e : parseText (lit "]]>") q with
        | none => simp
        | some z => have := parseText_length (v := z.1) (r := z.2) e; exact ih (by omega)
      | unknown =>
        simp only
        cases e : parseText (lit ">") q with
        | none => simp
        | some z => have := parseText_length (v := z.1) (r := z.2) e; exact ih (by omega)
      | text =>
        simp only
        cases e : parseText (lit "<") q with
        | none => simp
        | some z =>
          have := parseText_length (v := z.1) (r := z.2) e
          simp only
          split
          · simp
          · exact ih (by simp [lit] at this ⊢; omega)
      | elem =>
        simp only
        have hq : q.length < p.length := hl.elim (·.2) (fun h => by cases h.1)
        cases e : parseTag q with
        | error c => simp
        | ok z =>
          obtain ⟨n, as, c, r1⟩ := z
          have ht := parseTag_two e
          cases c with
          | closing => simp
          | closed => exact ih (by omega)
          | opened =>
            simp only
            by_cases hr : r1 = []
            · rw [if_pos hr]; simp
            · rw [if_neg hr]
              have : 0 < r1.length := List.length_pos_iff.2 hr
              cases d with
              | zero => omega
              | succ d =>
                simp only
                have hk := ih (d := d) (doc := false) (cs := []) (p := r1) (by omega)
                cases e3 : nodesS d f false [] r1 with
                | none => exact absurd e3 hk
                | some b =>
                  cases b with
                  | failed c => simp
                  | atEnd l => simp
                  | byTag l m' r2 =>
                    simp only
                    split
                    · have hb := (nodesS_fits f (d := d) (doc := false) (cs := []) (p := r1)).1 _ e3
                      have := (parseNodes_fuel r1.length r1 le_rfl false []).2 f l m' r2 hb.symm
                      exact ih (by omega)
                    · simp

/-! ## Towers -/

theorem tag_a (r : Str) : parseTag (lit "a>" ++ r) = .ok (lit "a", [], .opened, r) := by
  unfold parseTag
  have h1 : skipSpace (lit "a>" ++ r) = lit "a>" ++ r := rfl
  simp only [h1]
  rfl

theorem identify_a (r : Str) : identify (lit "<a>" ++ r) = some (.elem, lit "a>" ++ r) := rfl

theorem tower_succ (n : Nat) : tower (n + 1) = lit "<a>" ++ tower n := by
  unfold tower
  rw [List.replicate_succ, List.flatten_cons, List.append_assoc]

theorem tower_length (n : Nat) : (tower n).length = 3 * n + 1 := by
  induction n with
  | zero => rfl
  | succ n ih => rw [tower_succ, List.length_append, ih]; show 3 + _ = _; omega

theorem nodesS_tower (d f : Nat) {doc : Bool} {cs : List Node} {t : Str} (h : d < f) : nodesS d f doc cs (tower (d + 1) ++ t) = none := by
  induction d generalizing f doc cs with
  | zero =>
    obtain ⟨f, rfl⟩ : ∃ g, f = g + 1 := ⟨f - 1, by omega⟩
    rw [tower_succ, nodesS, List.append_assoc, identify_a]
    simp only [tag_a]
    rw [if_neg (by simp [tower, lit])]
  | succ d ih =>
    obtain ⟨f, rfl⟩ : ∃ g, f = g + 1 := ⟨f - 1, by omega⟩
    rw [tower_succ, nodesS, List.append_assoc, identify_a]
    simp only [tag_a]
    rw [if_neg (by simp [tower, lit]), ih f (by omega)]

theorem tower_noNul (n : Nat) : ∀ b ∈ closedTower n, b ≠ 0 := by
  intro b hb
  unfold closedTower tower at hb
  simp only [List.mem_append, List.mem_flatten, List.mem_replicate] at hb
  rcases hb with (⟨l, ⟨-, rfl⟩, hb⟩ | hb) | ⟨l, ⟨-, rfl⟩, hb⟩
  · revert b; decide
  · revert b; decide
  · revert b; decide

/-! ## Printing -/

theorem stack_put (s : Printer) (t : Str) : (s.put t).stack = s.stack := rfl
theorem stack_printSpace (s : Printer) : s.printSpace.stack = s.stack := rfl
theorem stack_sealed (s : Printer) : s.sealed.stack = s.stack := by
  unfold Printer.sealed
  split <;> rfl
theorem stack_newLine (s : Printer) : s.newLine.stack = s.stack := by
  unfold Printer.newLine
  dsimp only
  split <;> rfl
theorem stack_pushText (s : Printer) (c : Bool) (v : Str) : (s.pushText c v).stack = s.stack := by
  unfold Printer.pushText
  dsimp only
  split <;> rw [stack_put, stack_sealed]
theorem stack_openElement (s : Printer) (n : Str) : (s.openElement n).stack = n :: s.stack := by
  unfold Printer.openElement
  dsimp only
  rw [stack_put, stack_put]
  split <;> (try rw [stack_printSpace]) <;> split <;> simp only [stack_put, stack_printSpace, stack_sealed]
theorem stack_attributes (as : List (Str × Str)) : ∀ s : Printer, (as.foldl Printer.pushAttribute s).stack = s.stack := by
  induction as with
  | nil => intro s; rfl
  | cons a as ih => intro s; rw [List.foldl_cons, ih]; rfl
theorem close_ok {s : Printer} {n : Str} {l : List Str} (h : s.stack = n :: l) : ∃ s', s.closeElement = .ok s' ∧ s'.stack = l := by
  unfold Printer.closeElement
  rw [h]
  dsimp only
  refine ⟨_, rfl, ?_⟩
  dsimp only
  repeat' split
  all_goals rfl

mutual
theorem accept_ok : ∀ (x : Node) (s : Printer), ∃ s', x.accept s = .ok s' ∧ s'.stack = s.stack
  | .elem n as cs, s => by
    obtain ⟨s1, h1, h2⟩ := acceptAll_ok cs (as.foldl Printer.pushAttribute (s.openElement n))
    rw [stack_attributes, stack_openElement] at h2
    obtain ⟨s2, h3, h4⟩ := close_ok h2
    refine ⟨s2, ?_, h4⟩
    unfold Node.accept
    dsimp only
    rw [h1]
    exact h3
  | .text c v, s => ⟨_, rfl, stack_pushText ..⟩
  | .comment v, s => ⟨_, rfl, by unfold Printer.pushComment; rw [stack_put, stack_newLine, stack_sealed]⟩
  | .decl v, s => ⟨_, rfl, by unfold Printer.pushDeclaration; rw [stack_put, stack_newLine, stack_sealed]⟩
  | .unknown v, s => ⟨_, rfl, by unfold Printer.pushUnknown; rw [stack_put, stack_newLine, stack_sealed]⟩
theorem acceptAll_ok : ∀ (l : List Node) (s : Printer), ∃ s', acceptAll l s = .ok s' ∧ s'.stack = s.stack
  | [], s => ⟨s, rfl, rfl⟩
  | x :: l, s => by
    obtain ⟨s1, h1, h2⟩ := accept_ok x s
    obtain ⟨s2, h3, h4⟩ := acceptAll_ok l s1
    refine ⟨s2, ?_, h4.trans h2⟩
    unfold acceptAll
    rw [h1]
    exact h3
end

mutual
theorem acceptS_eq : ∀ (x : Node) (d : Nat) (s : Printer), acceptS d x s = if levels x ≤ d then some (x.accept s) else none
  | x, 0, s => by
    have : 0 < levels x := by cases x <;> simp [levels]
    rw [if_neg (by omega)]
    cases x <;> rfl
  | .elem n as cs, d + 1, s => by
    unfold acceptS
    rw [acceptAllS_eq cs d, levels]
    by_cases h : levelsAll cs ≤ d
    · rw [if_pos h, if_pos (by omega)]
      rfl
    · rw [if_neg h, if_neg (by omega)]
  | .text c v, d + 1, s => by rw [if_pos (by simp [levels])]; rfl
  | .comment v, d + 1, s => by rw [if_pos (by simp [levels])]; rfl
  | .decl v, d + 1, s => by rw [if_pos (by simp [levels])]; rfl
  | .unknown v, d + 1, s => by rw [if_pos (by simp [levels])]; rfl
theorem acceptAllS_eq : ∀ (l : List Node) (d : Nat) (s : Printer), acceptAllS d l s = if levelsAll l ≤ d then some (acceptAll l s) else none
  | [], d, s => by rw [if_pos (by simp [levelsAll])]; unfold acceptAllS; rfl
  | x :: l, d, s => by
    obtain ⟨s1, h1, _⟩ := accept_ok x s
    unfold acceptAllS
    rw [acceptS_eq x d s, levelsAll]
    by_cases h : levels x ≤ d
    · rw [if_pos h, h1]
      dsimp only
      rw [acceptAllS_eq l d s1, show acceptAll (x :: l) s = acceptAll l s1 by
        show (x.accept s >>= fun s => acceptAll l s) = _
        rw [h1]; rfl]
      by_cases h' : levelsAll l ≤ d
      · rw [if_pos h', if_pos (by omega)]
      · rw [if_neg h', if_neg (by omega)]
    · rw [if_neg h, if_neg (by omega)]
end

end Verif.Xml.Stack
