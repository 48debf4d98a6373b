import Verif.Proof.XmlStream1
/-!
# Printing to memory: every call does what it does to a list of bytes
-/
namespace Verif.Xml.MemPrinter
open Tec Dyn Spec.Grow Verif.Proof

variable {room : Nat → Bool} {p p1 p2 p' : Printer}

theorem put_put (p : Printer) (a b : Str) : (p.put a).put b = p.put (a ++ b) := by simp [Printer.put]

theorem put_nil (p : Printer) : p.put [] = p := by simp [Printer.put]

theorem Does.to {m : P Unit} (h : Does room m p p1) (e : p1 = p') : Does room m p p' := e ▸ h

theorem Does.spaces (n : Nat) : Does room (spaces room n) p (p.put (List.replicate (4 * n) 32)) := by
  induction n generalizing p with
  | zero => exact Does.pure.to (put_nil p).symm
  | succ n ih =>
    refine ((Does.write (lit "    ")).bind ih).to ?_
    rw [put_put]
    rw [show lit "    " = List.replicate 4 32 by decide, List.replicate_append_replicate, show 4 * (n + 1) = 4 + 4 * n by omega]

theorem Does.printSpace : Does room (printSpace room) p p.printSpace :=
  Does.get (by simp [Printer.printSpace, Printer.put]) fun s hs => by
    rw [hs.depth]; exact Does.spaces _

theorem Does.flush {n : Nat} {run : Str} (h : run.length ≤ n) : Does room (flush room n run) p (p.put run) := by
  induction n generalizing run p with
  | zero =>
    have : run = [] := List.eq_nil_of_length_eq_zero (by omega)
    subst this
    exact Does.pure.to (put_nil p).symm
  | succ n ih =>
    unfold MemPrinter.flush
    by_cases hr : run = []
    · rw [if_pos hr, hr]; exact Does.pure.to (put_nil p).symm
    · rw [if_neg hr]
      have := List.length_pos_iff.2 hr
      refine ((Does.write _).bind (ih (run := run.drop 2147483647) (by simp; omega))).to ?_
      rw [put_put, List.take_append_drop]

theorem Does.string {r : Bool} {run l : Str} : Does room (printString room r run l) p (p.put (Printer.string r run l)) := by
  induction l generalizing run p with
  | nil =>
    rw [printString, Printer.string]
    by_cases hr : run = []
    · rw [if_pos hr, hr]; exact Does.pure.to (put_nil p).symm
    · rw [if_neg hr]; exact Does.write _
  | cons b l ih =>
    rw [printString, Printer.string]
    cases he : Printer.entityOf r b with
    | none => exact ih
    | some e =>
      refine ((Does.flush (Nat.le_refl _)).bind ((Does.putc 38).bind ((Does.write e).bind ((Does.putc 59).bind ih)))).to ?_
      simp only [put_put]
      simp [show lit "&" = [38] by decide, show lit ";" = [59] by decide]

theorem Does.sealIt : Does room (sealIt room) p p.sealed := by
  refine Does.get (by unfold Printer.sealed; split <;> simp [Printer.put]) fun s hs => ?_
  refine Does.onlyIf (fun hc => ?_) (fun hc => ?_)
  · rw [hs.opened] at hc
    rw [Printer.sealed, if_pos hc]
    refine Does.bind (p1 := { p with justOpened := false }) (Does.modify (Nat.le_refl _)
      fun s hs => ⟨rfl, hs.stack, hs.first, hs.depth, hs.text, hs.compact, hs.buf⟩) ?_
    exact Does.putc 62
  · rw [hs.opened] at hc
    rw [Printer.sealed, if_neg hc]

theorem printSpace_le (p : Printer) : p.out.length ≤ p.printSpace.out.length := by simp [Printer.printSpace, Printer.put]
theorem put_le (p : Printer) (t : Str) : p.out.length ≤ (p.put t).out.length := by simp [Printer.put]

theorem Does.newLine : Does room (newLine room) p p.newLine := by
  have hle : p.out.length ≤ p.newLine.out.length := by
    unfold Printer.newLine
    dsimp only
    split
    · exact Nat.le_trans (put_le p _) (printSpace_le _)
    · exact Nat.le_refl _
  refine Does.get hle fun s hs => ?_
  unfold Printer.newLine
  refine Does.bind (p1 := if p.textDepth < 0 ∧ ¬ p.first ∧ ¬ p.compact then (p.put (lit "\n")).printSpace else p) ?_ ?_
  · rw [hs.text, hs.first, hs.compact]
    refine Does.onlyIf (fun hc => ?_) (fun hc => ?_)
    · rw [if_pos hc]
      exact (Does.putc 10).bind Does.printSpace
    · rw [if_neg hc]
  · exact Does.modify (Nat.le_refl _) fun s hs => ⟨hs.opened, hs.stack, rfl, hs.depth, hs.text, hs.compact, hs.buf⟩

theorem Does.comment (v : Str) : Does room (pushComment room v) p (p.pushComment v) :=
  (Does.sealIt.bind (Does.newLine.bind ((Does.write _).bind ((Does.write v).bind (Does.write _))))).to (by
    simp only [put_put]; rw [Printer.pushComment, List.append_assoc])

theorem Does.decl (v : Str) : Does room (pushDeclaration room v) p (p.pushDeclaration v) :=
  (Does.sealIt.bind (Does.newLine.bind ((Does.write _).bind ((Does.write v).bind (Does.write _))))).to (by
    simp only [put_put]; rw [Printer.pushDeclaration, List.append_assoc])

theorem Does.unknown (v : Str) : Does room (pushUnknown room v) p (p.pushUnknown v) :=
  (Does.sealIt.bind (Does.newLine.bind ((Does.write _).bind ((Does.write v).bind (Does.putc 62))))).to (by
    simp only [put_put]; rw [Printer.pushUnknown, List.append_assoc]; rfl)

theorem Does.header (b d : Bool) : Does room (pushHeader room b d) p (p.pushHeader b d) := by
  unfold Printer.pushHeader
  refine Does.bind (p1 := if b then p.put [0xEF, 0xBB, 0xBF] else p) (Does.onlyIf (fun hc => ?_) fun hc => if_neg hc)
    (Does.onlyIf (fun hc => ?_) fun hc => if_neg hc)
  · rw [if_pos hc]; exact Does.write _
  · dsimp only; rw [if_pos hc]; exact Does.decl _

theorem Does.attr (n v : Str) : Does room (pushAttribute room n v) p (p.pushAttribute (n, v)) :=
  ((Does.putc 32).bind ((Does.write n).bind ((Does.write _).bind (Does.string.bind (Does.putc 34))))).to (by
    simp only [put_put]; rw [Printer.pushAttribute]
    simp [show lit " " = [32] by decide, show lit "\"" = [34] by decide])

/-- the depth is the number of open elements, and each of them has written something -/
structure Fine (p : Printer) : Prop where
  depth : p.depth = p.stack.length
  out : p.stack.length ≤ p.out.length

theorem limit_eq : limit = 1073741823 := rfl

theorem sealed_le (p : Printer) : p.out.length ≤ p.sealed.out.length := by
  unfold Printer.sealed; split
  · exact put_le { p with justOpened := false } _
  · exact Nat.le_refl _

theorem sealed_same (p : Printer) : p.sealed.stack = p.stack ∧ p.sealed.depth = p.depth ∧ p.sealed.textDepth = p.textDepth ∧ p.sealed.first = p.first := by
  unfold Printer.sealed; split <;> exact ⟨rfl, rfl, rfl, rfl⟩

theorem text_le (c : Bool) (v : Str) : p.out.length ≤ (p.pushText c v).out.length := by
  unfold Printer.pushText
  dsimp only
  have h := sealed_le { p with textDepth := p.depth - 1 }
  split <;> exact Nat.le_trans h (put_le _ _)

theorem Does.text (c : Bool) (v : Str) (h : Fine p) : Does room (pushText room c v) p (p.pushText c v) := by
  have hle := text_le (p := p) c v
  refine Does.get hle fun s hs => ?_
  rw [hs.depth]
  refine Does.i32 (fun hl => ?_) ?_
  · have := h.depth; have := h.out; rw [limit_eq] at hl; omega
  · unfold Printer.pushText
    refine Does.bind (p1 := { p with textDepth := p.depth - 1 }) (Does.modify (Nat.le_refl _)
      fun s hs => ⟨hs.opened, hs.stack, hs.first, hs.depth, rfl, hs.compact, hs.buf⟩) (Does.sealIt.bind ?_)
    cases c with
    | true =>
      exact ((Does.write _).bind ((Does.write v).bind (Does.write _))).to (by simp only [put_put]; rw [if_pos trivial, List.append_assoc])
    | false => exact Does.string

theorem ite_le {c : Prop} [Decidable c] {a b : Printer} (h : a.out.length ≤ b.out.length) : a.out.length ≤ (if c then b else a).out.length := by
  split
  · exact h
  · exact Nat.le_refl _

/-- the states of `OpenElement`: with the name on the stack -/
def open0 (p : Printer) (n : Str) : Printer := { p.sealed with stack := n :: p.stack }
/-- on a line of its own -/
def open1 (p : Printer) (n : Str) (c : Bool) : Printer := if p.textDepth < 0 ∧ ¬ p.first ∧ ¬ c then (open0 p n).put (lit "\n") else open0 p n
/-- with indentation -/
def open2 (p : Printer) (n : Str) (c : Bool) : Printer := if ¬ c then (open1 p n c).printSpace else open1 p n c

theorem open0_le (n : Str) : p.out.length ≤ (open0 p n).out.length := sealed_le p
theorem open1_le (n : Str) (c : Bool) : (open0 p n).out.length ≤ (open1 p n c).out.length := ite_le (put_le _ _)
theorem open2_le (n : Str) (c : Bool) : (open1 p n c).out.length ≤ (open2 p n c).out.length := ite_le (printSpace_le _)

theorem open2_same (n : Str) (c : Bool) : (open2 p n c).stack = n :: p.stack ∧ (open2 p n c).depth = p.depth := by
  obtain ⟨-, h2, -⟩ := sealed_same p
  unfold open2 open1
  split <;> split <;> exact ⟨rfl, h2⟩

theorem openAs_eq (n : Str) (c : Bool) : p.openAs n c =
    { ((open2 p n c).put (lit "<")).put n with justOpened := true, first := false, depth := (open2 p n c).depth + 1 } := by
  obtain ⟨h1, h2, h3, h4⟩ := sealed_same p
  unfold Printer.openAs open2 open1 open0
  dsimp only
  rw [h1, h3, h4]
  rfl

theorem openAs_same (n : Str) (c : Bool) : (p.openAs n c).stack = n :: p.stack ∧ (p.openAs n c).depth = p.depth + 1 ∧
    p.out.length + 1 ≤ (p.openAs n c).out.length := by
  rw [openAs_eq]
  obtain ⟨h1, h2⟩ := open2_same (p := p) n c
  refine ⟨h1, by rw [h2], ?_⟩
  have a := open0_le (p := p) n
  have b := open1_le (p := p) n c
  have d := open2_le (p := p) n c
  show _ ≤ (((open2 p n c).out ++ lit "<") ++ n).length
  rw [show lit "<" = [60] by decide]
  simp only [List.length_append, List.length_singleton]
  omega

theorem Does.open_ (n : Str) (c : Bool) (h : Fine p) : Does room (openElement room n c) p (p.openAs n c) := by
  obtain ⟨h1, h2, h3, h4⟩ := sealed_same p
  obtain ⟨h5, h6⟩ := open2_same (p := p) n c
  have b := open1_le (p := p) n c
  have d := open2_le (p := p) n c
  have e := put_le (open2 p n c) (lit "<")
  have f := put_le ((open2 p n c).put (lit "<")) n
  rw [openAs_eq]
  refine Does.sealIt.bind (Does.bind (p1 := open0 p n) (Does.modify (Nat.le_refl _)
      fun s hs => ⟨hs.opened, by rw [hs.stack, h1]; rfl, hs.first, hs.depth, hs.text, hs.compact, hs.buf⟩) ?_)
  refine Does.get (by show _ ≤ (((open2 p n c).put (lit "<")).put n).out.length; omega) fun s hs => ?_
  refine Does.bind (p1 := open1 p n c) (Does.onlyIf (fun hc => ?_) (fun hc => ?_)) (Does.bind (p1 := open2 p n c) (Does.onlyIf (fun hc => ?_) (fun hc => ?_))
    ((Does.write _).bind ((Does.write n).bind (Does.get (Nat.le_refl _) fun s hs => ?_))))
  · rw [hs.text, hs.first] at hc
    unfold open1
    rw [if_pos (by rw [← h3, ← h4]; exact hc)]
    exact Does.putc 10
  · rw [hs.text, hs.first] at hc
    unfold open1
    rw [if_neg (by rw [← h3, ← h4]; exact hc)]
  · unfold open2; rw [if_pos hc]; exact Does.printSpace
  · unfold open2; rw [if_neg hc]
  · have hd : s.depth = (open2 p n c).depth := hs.depth
    rw [hd]
    refine Does.i32 (fun hl => ?_) (Does.modify (Nat.le_refl _) fun s hs => ⟨rfl, hs.stack, rfl, rfl, hs.text, hs.compact, hs.buf⟩)
    replace hl : (((open2 p n c).put (lit "<")).put n).out.length + 1 ≤ limit := hl
    have a := open0_le (p := p) n
    rw [h6]
    have := h.depth; have := h.out; rw [limit_eq] at hl
    omega

/-- the states of `CloseElement`: with one element less -/
def close0 (p : Printer) (rest : List Str) : Printer := { p with depth := p.depth - 1, stack := rest }
/-- on a line of its own -/
def close1 (p : Printer) (rest : List Str) (c : Bool) : Printer :=
  if p.textDepth < 0 ∧ ¬ c then ((close0 p rest).put (lit "\n")).printSpace else close0 p rest
/-- with the end of the element -/
def close2 (p : Printer) (name : Str) (rest : List Str) (c : Bool) : Printer :=
  if p.justOpened then (close0 p rest).put (lit "/>") else (close1 p rest c).put (lit "</" ++ name ++ lit ">")
def close3 (p : Printer) (name : Str) (rest : List Str) (c : Bool) : Printer :=
  if (close2 p name rest c).textDepth = (close2 p name rest c).depth then { close2 p name rest c with textDepth := -1 } else close2 p name rest c
def close4 (p : Printer) (name : Str) (rest : List Str) (c : Bool) : Printer :=
  if (close3 p name rest c).depth = 0 ∧ ¬ c then (close3 p name rest c).put (lit "\n") else close3 p name rest c

theorem closeAs_eq {name : Str} {rest : List Str} (c : Bool) (h : p.stack = name :: rest) :
    p.closeAs c = .ok { close4 p name rest c with justOpened := false } := by
  unfold Printer.closeAs close4 close3 close2 close1 close0
  rw [h]

theorem close1_le (rest : List Str) (c : Bool) : p.out.length ≤ (close1 p rest c).out.length :=
  ite_le (a := close0 p rest) (Nat.le_trans (put_le (close0 p rest) (lit "\n")) (printSpace_le _))

theorem close2_le (name : Str) (rest : List Str) (c : Bool) : p.out.length ≤ (close2 p name rest c).out.length := by
  unfold close2
  split
  · exact put_le (close0 p rest) _
  · exact Nat.le_trans (close1_le rest c) (put_le _ _)

theorem close3_le (name : Str) (rest : List Str) (c : Bool) : (close2 p name rest c).out.length ≤ (close3 p name rest c).out.length :=
  ite_le (b := { close2 p name rest c with textDepth := -1 }) (Nat.le_refl _)

theorem close4_le (name : Str) (rest : List Str) (c : Bool) : (close3 p name rest c).out.length ≤ (close4 p name rest c).out.length :=
  ite_le (put_le _ _)

theorem close4_same (name : Str) (rest : List Str) (c : Bool) :
    (close4 p name rest c).stack = rest ∧ (close4 p name rest c).depth = p.depth - 1 := by
  have h1 : (close1 p rest c).stack = rest ∧ (close1 p rest c).depth = p.depth - 1 := by unfold close1; split <;> exact ⟨rfl, rfl⟩
  have h2 : (close2 p name rest c).stack = rest ∧ (close2 p name rest c).depth = p.depth - 1 := by
    unfold close2; split
    · exact ⟨rfl, rfl⟩
    · exact h1
  have h3 : (close3 p name rest c).stack = rest ∧ (close3 p name rest c).depth = p.depth - 1 := by
    unfold close3; split <;> exact h2
  unfold close4; split <;> exact h3

theorem Does.close {name : Str} {rest : List Str} (c : Bool) (h : Fine p) (hs : p.stack = name :: rest) :
    Does room (closeElement room c) p { close4 p name rest c with justOpened := false } := by
  have a := close2_le (p := p) name rest c
  have b := close3_le (p := p) name rest c
  have d := close4_le (p := p) name rest c
  refine Does.get (by show _ ≤ (close4 p name rest c).out.length; omega) fun s sim => ?_
  rw [sim.depth, sim.stack, hs]
  refine Does.i32 (fun hl => ?_) ?_
  · replace hl : (close4 p name rest c).out.length + 1 ≤ limit := hl
    have := h.depth; have := h.out; rw [limit_eq] at hl; omega
  · dsimp only
    refine Does.bind (p1 := close0 p rest) (Does.modify (Nat.le_refl _)
      fun s hs => ⟨hs.opened, rfl, hs.first, rfl, hs.text, hs.compact, hs.buf⟩) ?_
    rw [sim.opened, sim.text]
    refine Does.bind (p1 := if p.justOpened then (close0 p rest).put (lit "/>") else close0 p rest) (Does.onlyIf (fun hc => ?_) (fun hc => if_neg hc)) ?_
    · rw [if_pos hc]; exact Does.write _
    refine Does.bind (p1 := close2 p name rest c) (Does.onlyIf (fun hc => ?_) (fun hc => ?_)) ?_
    · unfold close2
      rw [if_neg hc, if_neg hc]
      refine Does.bind (p1 := close1 p rest c) (Does.onlyIf (fun hc => ?_) (fun hc => ?_)) ?_
      · unfold close1; rw [if_pos hc]; exact (Does.putc 10).bind Does.printSpace
      · unfold close1; rw [if_neg hc]
      · exact ((Does.write _).bind ((Does.write name).bind (Does.write _))).to (by simp only [put_put, List.append_assoc])
    · unfold close2
      have hc : p.justOpened = true := by simpa using hc
      rw [if_pos hc, if_pos hc]
    refine Does.bind (p1 := close3 p name rest c) (Does.modify b fun s hs => ?_) (Does.get (by show _ ≤ (close4 p name rest c).out.length; omega) fun s hs => ?_)
    · unfold close3
      by_cases ht : (close2 p name rest c).textDepth = (close2 p name rest c).depth
      · rw [if_pos ht, if_pos (by rw [hs.text, hs.depth]; exact ht)]
        exact ⟨hs.opened, hs.stack, hs.first, hs.depth, rfl, hs.compact, hs.buf⟩
      · rw [if_neg ht, if_neg (by rw [hs.text, hs.depth]; exact ht)]
        exact hs
    · rw [hs.depth]
      refine Does.bind (p1 := close4 p name rest c) (Does.onlyIf (fun hc => ?_) (fun hc => ?_)) (Does.modify (Nat.le_refl _)
        fun s hs => ⟨rfl, hs.stack, hs.first, hs.depth, hs.text, hs.compact, hs.buf⟩)
      · unfold close4; rw [if_pos hc]; exact Does.putc 10
      · unfold close4; rw [if_neg hc]

end Verif.Xml.MemPrinter
