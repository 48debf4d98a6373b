import Verif.Proof.XmlStream3
/-!
# A printer that is used again
-/
namespace Verif.Xml
open Tec

/-- holds of a new printer and after every call -/
structure Calm (c : Bool) (p : Printer) : Prop where
  compact : p.compact = c
  lo : -1 ≤ p.textDepth
  hi : p.textDepth < (p.stack.length : Int)
  depth : p.depth = p.stack.length
  opened : p.justOpened = true → p.stack ≠ []

theorem calm_new (c : Bool) : Calm c (.new c) :=
  ⟨rfl, show (-1 : Int) ≤ -1 by decide, show (-1 : Int) < ((0 : Nat) : Int) by decide, rfl, fun h => nomatch h⟩

theorem Calm.put {c : Bool} {p : Printer} (h : Calm c p) (t : Str) : Calm c (p.put t) := ⟨h.compact, h.lo, h.hi, h.depth, h.opened⟩

theorem Calm.sealed {c : Bool} {p : Printer} (h : Calm c p) : Calm c p.sealed := by
  unfold Printer.sealed
  split
  · exact Calm.put (p := { p with justOpened := false }) ⟨h.compact, h.lo, h.hi, h.depth, fun h => nomatch h⟩ _
  · exact h

theorem Calm.newLine {c : Bool} {p : Printer} (h : Calm c p) : Calm c p.newLine := by
  unfold Printer.newLine
  dsimp only
  split <;> exact ⟨h.compact, h.lo, h.hi, h.depth, h.opened⟩

theorem Calm.openAs {c : Bool} {p : Printer} (h : Calm c p) (n : Str) (c' : Bool) : Calm c (p.openAs n c') := by
  have hs := h.sealed
  have d : p.sealed.depth + 1 = ((n :: p.sealed.stack).length : Int) := by rw [hs.depth]; rfl
  have hi : p.sealed.textDepth < ((n :: p.sealed.stack).length : Int) := by have := hs.hi; rw [List.length_cons]; omega
  unfold Printer.openAs
  dsimp only
  split <;> split <;> exact ⟨hs.compact, hs.lo, hi, d, fun _ e => by cases e⟩

theorem Calm.text {c : Bool} {p : Printer} (h : Calm c p) (b : Bool) (v : Str) : Calm c (p.pushText b v) := by
  have hd := h.depth
  have h0 : Calm c { p with textDepth := p.depth - 1 } := ⟨h.compact, by show _ ≤ p.depth - 1; omega, by show p.depth - 1 < (p.stack.length : Int); omega, h.depth, h.opened⟩
  unfold Printer.pushText
  dsimp only
  split <;> exact h0.sealed.put _

theorem Calm.closeAs {c : Bool} {p q : Printer} (h : Calm c p) {c' : Bool} (e : p.closeAs c' = .ok q) : Calm c q := by
  cases hs : p.stack with
  | nil =>
    have : p.closeAs c' = .ub .oob := by unfold Printer.closeAs; rw [hs]
    rw [this] at e; cases e
  | cons n r =>
    unfold Printer.closeAs at e
    rw [hs] at e
    injection e with e
    have hd := h.depth
    have hh := h.hi
    rw [hs, List.length_cons] at hd hh
    have hl := h.lo
    have hd1 : p.depth - 1 = (r.length : Int) := by omega
    subst e
    have key : ∀ a : Printer, a.compact = c → a.textDepth = p.textDepth → a.depth = p.depth - 1 → a.stack = r →
        ∀ b : Printer, b = (if a.textDepth = a.depth then { a with textDepth := -1 } else a) → ∀ d : Printer, d = (if b.depth = 0 ∧ ¬ c' then b.put (lit "\n") else b) →
          Calm c { d with justOpened := false } := by
      intro a h1 h2 h3 h4 b hb d hd'
      have hb' : Calm c { b with justOpened := false } := by
        subst hb
        split
        · refine ⟨h1, show (-1 : Int) ≤ -1 by decide, ?_, ?_, fun h => nomatch h⟩
          · show (-1 : Int) < (a.stack.length : Int); omega
          · show a.depth = (a.stack.length : Int); rw [h3, h4]; exact hd1
        · rename_i hne
          rw [h2, h3] at hne
          refine ⟨h1, by show -1 ≤ a.textDepth; omega, ?_, ?_, fun h => nomatch h⟩
          · show a.textDepth < (a.stack.length : Int); rw [h4]; omega
          · show a.depth = (a.stack.length : Int); rw [h3, h4]; exact hd1
      subst hd'
      split
      · exact ⟨hb'.compact, hb'.lo, hb'.hi, hb'.depth, fun h => nomatch h⟩
      · exact hb'
    refine key _ ?_ ?_ ?_ ?_ _ rfl _ rfl
    all_goals
      split
      · first | exact h.compact | rfl
      · split <;> first | exact h.compact | rfl

theorem Calm.call {c : Bool} {p q : Printer} (h : Calm c p) {a : Call} (e : p.call a = .ok q) : Calm c q := by
  cases a with
  | header b d =>
    injection e with e; subst e
    unfold Printer.pushHeader
    dsimp only
    split <;> split
    · exact (h.put _).sealed.newLine.put _
    · exact h.sealed.newLine.put _
    · exact h.put _
    · exact h
  | open_ n c' => injection e with e; subst e; exact h.openAs n c'
  | attr n v => injection e with e; subst e; exact h.put _
  | text b v => injection e with e; subst e; exact h.text b v
  | comment v => injection e with e; subst e; exact h.sealed.newLine.put _
  | decl v => injection e with e; subst e; exact h.sealed.newLine.put _
  | unknown v => injection e with e; subst e; exact h.sealed.newLine.put _
  | close c' => exact h.closeAs e

theorem Calm.calls {c : Bool} : ∀ (cs : List Call) {p q : Printer}, Calm c p → Printer.calls cs p = .ok q → Calm c q
  | [], p, q, h, e => by injection e with e; subst e; exact h
  | a :: cs, p, q, h, e => by
    rw [Printer.calls] at e
    cases h1 : p.call a with
    | ok r => rw [h1] at e; exact Calm.calls cs (h.call h1) e
    | err x => rw [h1] at e; cases e
    | ub x => rw [h1] at e; cases e

namespace MemPrinter
open Dyn Spec.Grow Verif.Proof

/-- emptied when no element is open, a printer is as new -/
theorem clear_ok (room : Nat → Bool) {c : Bool} {s : MemPrinter} {p : Printer} (hs : Sim s p) (h : Calm c p) (hk : p.stack = []) :
    ∃ s', clearBuffer room s = .ok () s' ∧ Sim s' (.new c) := by
  have ho : p.justOpened = false := by
    cases e : p.justOpened with
    | false => rfl
    | true => exact (h.opened e hk).elim
  have ht : p.textDepth = -1 := by
    have := h.lo; have := h.hi; rw [hk] at this; simp at this; omega
  have hd : p.depth = 0 := by rw [h.depth, hk]; rfl
  obtain ⟨r, b1, l1, e1, st1, hi1, -⟩ := da_step hs.buf room .clear trivial fun hlt => by
    have h1 : s.buf.allocated < ((0 : Nat) : Int) := hlt
    have := hs.buf.few
    omega
  cases st1
  have e1' : Clear s.buf = .ok () b1 := by
    have : Clear s.buf = .ok () { s.buf with size := 0 } := rfl
    have e1 : (Clear >>= fun _ => (Pure.pure Ans.unit : M (DA Byte) (Ans Byte))) s.buf = .ok .unit b1 := e1
    rw [M.bind_ok this] at e1
    injection e1 with _ e1
    rw [this, e1]
  obtain ⟨r2, b2, l2, e2, st2, hi2, -⟩ := da_step hi1 room (.push 0) trivial fun hlt => by
    have h1 : b1.allocated < ((1 : Nat) : Int) := hlt
    have := hi1.few
    omega
  cases st2
  have e2' : Push room 0 b1 = .ok () b2 := by
    have e2 : (Push room 0 >>= fun _ => (Pure.pure Ans.unit : M (DA Byte) (Ans Byte))) b1 = .ok .unit b2 := e2
    cases hp : Push room (0 : Byte) b1 with
    | ok u b =>
      rw [M.bind_ok hp] at e2
      injection e2 with _ e2
      rw [e2]
    | err x y => rw [M.bind_err hp] at e2; cases e2
    | ub u => rw [M.bind_ub hp] at e2; cases e2
  refine ⟨{ s with buf := b2, first := true }, (M.bind_ok (onBuf_ok e1')).trans ((M.bind_ok (onBuf_ok (s := { s with buf := b1 }) e2')).trans rfl), ?_⟩
  exact ⟨hs.opened.trans ho, hs.stack.trans hk, rfl, hs.depth.trans hd, hs.text.trans ht, hs.compact.trans h.compact, hi2⟩

end MemPrinter
end Verif.Xml
