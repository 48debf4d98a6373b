import Verif.Model.Xml.Stream
import Verif.Proof.XPool2
/-!
# Printing to memory: the buffer holds the text and a null
-/
namespace Verif.Xml.MemPrinter
open Tec Dyn Spec.Grow Verif.Proof

/-- the largest number of cells for which `DynArray` never overflows an `int` -/
def limit : Nat := 1073741823

/-- the printer that writes to memory and the one that writes to a list -/
structure Sim (s : MemPrinter) (p : Printer) : Prop where
  opened : s.justOpened = p.justOpened
  stack : s.stack = p.stack
  first : s.first = p.first
  depth : s.depth = p.depth
  text : s.textDepth = p.textDepth
  compact : s.compact = p.compact
  buf : Is 20 s.buf (p.out.map some ++ [some 0])

/-- The statement leads from `p` to `p'`, if that has room; or there is no memory. -/
def Does (room : Nat → Bool) (m : P Unit) (p p' : Printer) : Prop :=
  p.out.length ≤ p'.out.length ∧ (p'.out.length + 1 ≤ limit → ∀ s, Sim s p →
    (∃ s', m s = .ok () s' ∧ Sim s' p') ∨ (∃ s', m s = .err .badAlloc s' ∧ ∃ n, room n = false))

variable {room : Nat → Bool} {p p1 p2 p' : Printer}

theorem Does.pure : Does room (Pure.pure ()) p p := ⟨Nat.le_refl _, fun _ s h => .inl ⟨s, rfl, h⟩⟩

theorem Does.bind {m : P Unit} {f : Unit → P Unit} (h1 : Does room m p p1) (h2 : Does room (f ()) p1 p2) : Does room (m >>= f) p p2 := by
  refine ⟨Nat.le_trans h1.1 h2.1, fun hl s hs => ?_⟩
  rcases h1.2 (by have := h2.1; omega) s hs with ⟨s1, e, hs1⟩ | ⟨s1, e, hn⟩
  · rcases h2.2 hl s1 hs1 with ⟨s2, e2, hs2⟩ | ⟨s2, e2, hn⟩
    · exact .inl ⟨s2, (M.bind_ok e).trans e2, hs2⟩
    · exact .inr ⟨s2, (M.bind_ok e).trans e2, hn⟩
  · exact .inr ⟨s1, M.bind_err e, hn⟩

theorem Does.get {f : MemPrinter → P Unit} (hl : p.out.length ≤ p'.out.length) (h : ∀ s, Sim s p → Does room (f s) p p') :
    Does room (M.get >>= f) p p' :=
  ⟨hl, fun hl s hs => (h s hs).2 hl s hs⟩

theorem Does.i32 {x : Int} {f : Int → P Unit} (hx : p'.out.length + 1 ≤ limit → -2147483648 ≤ x ∧ x ≤ 2147483647) (h : Does room (f x) p p') :
    Does room ((liftM (Verif.i32 x) : P Int) >>= f) p p' := by
  refine ⟨h.1, fun hl s hs => ?_⟩
  have : ((liftM (Verif.i32 x) : P Int) >>= f) s = f x s := by
    have hi := hx hl
    have : Verif.i32 x = .ok x := i32_ok (by unfold InI32; omega)
    rw [this]; rfl
  rw [this]
  exact h.2 hl s hs

theorem Does.modify {g : MemPrinter → MemPrinter} (hl : p.out.length ≤ p'.out.length) (h : ∀ s, Sim s p → Sim (g s) p') :
    Does room (M.modify g) p p' := ⟨hl, fun _ s hs => .inl ⟨_, rfl, h s hs⟩⟩

theorem Does.onlyIf {c : Prop} [Decidable c] {m : P Unit} (h : c → Does room m p p') (h' : ¬ c → p' = p) : Does room (onlyIf c m) p p' := by
  unfold MemPrinter.onlyIf
  by_cases hc : c
  · rw [if_pos hc]; exact h hc
  · rw [if_neg hc, h' hc]; exact .pure

/-! ## Writing -/

theorem stores_ok {N : Nat} {a v : Str} {w : List (Option Byte)} {b : DA Byte} (h : Is N b (a.map some ++ w)) (hw : v.length ≤ w.length) :
    ∃ b', stores (a.length : Int) v b = .ok () b' ∧ Is N b' ((a ++ v).map some ++ w.drop v.length) := by
  induction v generalizing a w b with
  | nil => exact ⟨b, rfl, by simpa using h⟩
  | cons x v ih =>
    rcases w with _ | ⟨y, w⟩
    · simp at hw
    · obtain ⟨b1, e, h1, -⟩ := da_set h (i := a.length) (by simp) x
      have : (a.map some ++ y :: w).set a.length (some x) = (a ++ [x]).map some ++ w := by
        rw [List.set_append_right _ _ (by simp)]; simp
      rw [this] at h1
      obtain ⟨b2, e2, h2⟩ := ih h1 (by simpa using hw)
      refine ⟨b2, ?_, by simpa using h2⟩
      rw [stores]
      refine (M.bind_ok e).trans ?_
      have : ((a ++ [x]).length : Int) = (a.length : Int) + 1 := by simp
      rw [← this]; exact e2

theorem pushArr_ok {a : Str} {b : DA Byte} (n : Nat) (h : Is 20 b (a.map some ++ [some 0])) (hl : a.length + n + 1 ≤ limit) :
    (∃ b' w, PushArr room (n : Int) b = .ok ((a.length + 1 : Nat) : Int) b' ∧ w.length = n ∧ Is 20 b' (a.map some ++ some 0 :: w)) ∨
    (∃ b', PushArr room (n : Int) b = .err .badAlloc b' ∧ ∃ n, room n = false) := by
  have hlim : ((a.length + 1 + n : Nat) : Int) * 2 ≤ INT_MAX := by
    unfold limit at hl
    have : INT_MAX = 2147483647 := rfl
    omega
  by_cases hc : b.allocated < ((a.length + 1 + n : Nat) : Int) ∧ room b.asked = false
  · right
    obtain ⟨b', e, -⟩ := da_step_err h room (.pushArr n) (by simpa [need] using hc.1) (by simpa [need] using hlim) hc.2
    refine ⟨b', ?_, _, hc.2⟩
    have e' : (PushArr room (n : Int) >>= fun r => (Pure.pure (Ans.int r) : M (DA Byte) (Ans Byte))) b = .err .badAlloc b' := e
    cases hp : PushArr room (n : Int) b with
    | ok r b1 => rw [M.bind_ok hp] at e'; cases e'
    | err e1 b1 => rw [M.bind_err hp] at e'; injection e' with e1 e2; rw [e1, e2]
    | ub u => rw [M.bind_ub hp] at e'; cases e'
  · left
    obtain ⟨r, b', l', e, st, hi, -⟩ := da_step h room (.pushArr n) trivial fun hlt => ⟨by simpa [need] using hlim, by
      have : b.allocated < ((a.length + 1 + n : Nat) : Int) := by simpa [need] using hlt
      cases hr : room b.asked with
      | true => rfl
      | false => exact absurd ⟨this, hr⟩ hc⟩
    have e' : (PushArr room (n : Int) >>= fun r => (Pure.pure (Ans.int r) : M (DA Byte) (Ans Byte))) b = .ok r b' := e
    cases st with
    | pushArr w =>
      refine ⟨b', w, ?_, rfl, by simpa using hi⟩
      cases hp : PushArr room (w.length : Int) b with
      | ok r1 b1 =>
        rw [M.bind_ok hp] at e'
        injection e' with e1 e2
        injection e1 with e1
        rw [e1, e2]; simp
      | err e1 b1 => rw [M.bind_err hp] at e'; cases e'
      | ub u => rw [M.bind_ub hp] at e'; cases e'

theorem onBuf_ok {α : Type} {m : M (DA Byte) α} {s : MemPrinter} {r : α} {b : DA Byte} (h : m s.buf = .ok r b) :
    onBuf m s = .ok r { s with buf := b } := by unfold onBuf; rw [h]

theorem onBuf_err {α : Type} {m : M (DA Byte) α} {s : MemPrinter} {e : Err} {b : DA Byte} (h : m s.buf = .err e b) :
    onBuf m s = .err e { s with buf := b } := by unfold onBuf; rw [h]

theorem tail_ok {a v : Str} {w : List (Option Byte)} {b : DA Byte} (hw : w.length = v.length) (h : Is 20 b (a.map some ++ some 0 :: w)) :
    ∃ b', (do stores (((a.length + 1 : Nat) : Int) - 1) v; store (((a.length + 1 : Nat) : Int) - 1 + v.length) 0 : M (DA Byte) Unit) b = .ok () b' ∧
      Is 20 b' ((a ++ v).map some ++ [some 0]) := by
  have e0 : ((a.length + 1 : Nat) : Int) - 1 = (a.length : Int) := by omega
  rw [e0]
  obtain ⟨b1, e1, h1⟩ := stores_ok (v := v) h (by simp; omega)
  obtain ⟨z, hz⟩ : ∃ z, (some 0 :: w).drop v.length = [z] := by
    apply List.length_eq_one_iff.1
    simp; omega
  rw [hz] at h1
  obtain ⟨b2, e2, h2, -⟩ := da_set h1 (i := (a ++ v).length) (by simp) 0
  refine ⟨b2, (M.bind_ok e1).trans ?_, ?_⟩
  · rw [← e2]; congr 1; simp
  · rw [List.set_append_right _ _ (by simp)] at h2
    simpa using h2

theorem Does.write (t : Str) : Does room (write room t) p (p.put t) := by
  refine ⟨by simp [Printer.put], fun hl s hs => ?_⟩
  simp only [Printer.put, List.length_append] at hl
  have hcast : toI32 t.length = (t.length : Int) := by
    unfold limit at hl
    unfold toI32
    rw [Nat.mod_eq_of_lt (by omega), if_pos (by omega)]
  unfold MemPrinter.write
  rw [hcast]
  rcases pushArr_ok (room := room) t.length hs.buf (by omega) with ⟨b1, w, e1, hw, h1⟩ | ⟨b1, e1, hn⟩
  · obtain ⟨b2, e2, h2⟩ := tail_ok hw h1
    exact .inl ⟨{ s with buf := b2 }, onBuf_ok ((M.bind_ok e1).trans e2), ⟨hs.opened, hs.stack, hs.first, hs.depth, hs.text, hs.compact, h2⟩⟩
  · exact .inr ⟨_, onBuf_err (M.bind_err e1), hn⟩

theorem Does.putc (c : Byte) : Does room (putc room c) p (p.put [c]) := by
  refine ⟨by simp [Printer.put], fun hl s hs => ?_⟩
  simp only [Printer.put, List.length_append, List.length_singleton] at hl
  unfold MemPrinter.putc
  rcases pushArr_ok (room := room) 1 hs.buf (by omega) with ⟨b1, w, e1, hw, h1⟩ | ⟨b1, e1, hn⟩
  · obtain ⟨b2, e2, h2⟩ := tail_ok (v := [c]) (by simpa using hw) h1
    have e3 : (stores (((p.out.length + 1 : Nat) : Int) - 1) [c] : M (DA Byte) Unit) = store (((p.out.length + 1 : Nat) : Int) - 1) c := by
      rw [stores, stores]; funext x
      show M.bind _ _ _ = _
      unfold M.bind
      cases store (((p.out.length + 1 : Nat) : Int) - 1) c x <;> rfl
    rw [e3] at e2
    exact .inl ⟨{ s with buf := b2 }, onBuf_ok ((M.bind_ok e1).trans e2), ⟨hs.opened, hs.stack, hs.first, hs.depth, hs.text, hs.compact, h2⟩⟩
  · exact .inr ⟨_, onBuf_err (M.bind_err e1), hn⟩

end Verif.Xml.MemPrinter
