import Verif.Proof.XmlStream4
import Verif.Props.XmlDoc
/-!
# C101, C102: printing without a document, and printing to memory
-/
namespace Verif.Props
open Spec Tec Xml

/-! ## C101 -/

/-- C101: calls in which every element is closed and attributes directly follow the opening of their element describe exactly one list of nodes;
nothing undefined happens that does not happen when the nodes are printed, and the text is the same -/
theorem C101 {c : Bool} {cs : List Call} (h : Legal c 0 false cs) :
    ∃ l, (∀ l', cs = callsAll c l' ↔ l' = l) ∧ Printer.calls cs (.new c) = acceptAll l (.new c) := by
  obtain ⟨l, rfl⟩ := legal_iff.1 h
  exact ⟨l, fun l' => ⟨fun e => (callsAll_inj e).symm, fun e => by rw [e]⟩, calls_acceptAll l (.new c)⟩

/-- C101: no other calls describe nodes -/
theorem C101_legal {c : Bool} {cs : List Call} : Legal c 0 false cs ↔ ∃ l, cs = callsAll c l := legal_iff

/-- C101: what was described is loaded from the text, in which, unless printed compactly, texts before an element have the white space before the element -/
theorem C101_load {l : List Node} (h : PrintableDoc l) (c bom : Bool) :
    ∃ p, Printer.calls (.header bom false :: callsAll c l) (.new c) = .ok p ∧ loadFile (some p.out) = .ok (indentAll (tab c) 0 l) := by
  obtain ⟨t, h1, h2⟩ := C81 h c bom
  have e : Printer.calls (.header bom false :: callsAll c l) (.new c) = acceptDoc bom l (.new c) := by
    rw [Printer.calls]
    show Printer.calls (callsAll c l) ((Printer.new c).pushHeader bom false) = _
    unfold acceptDoc Printer.pushHeader
    cases bom
    · exact calls_acceptAll l (.new c)
    · exact calls_acceptAll l ((Printer.new c).put [0xEF, 0xBB, 0xBF])
  rw [e]
  unfold printed at h1
  cases hd : acceptDoc bom l (.new c) with
  | ok p =>
    rw [hd] at h1
    injection h1 with h1
    exact ⟨p, rfl, by rw [h1]; exact h2⟩
  | err x => rw [hd] at h1; cases h1
  | ub x => rw [hd] at h1; cases h1

/-- C101: a header with a declaration is a header followed by this declaration -/
theorem C101_header (bom : Bool) (cs : List Call) (p : Printer) :
    Printer.calls (.header bom true :: cs) p = Printer.calls (.header bom false :: .decl (lit "xml version=\"1.0\"") :: cs) p := rfl

/-- `<a x="1">y<b/></a>` without a document -/
def aCalls : List Call := [.open_ (lit "a") true, .attr (lit "x") (lit "1"), .text false (lit "y"), .open_ (lit "b") true, .close true, .close true]

example : Legal true 0 false aCalls := ⟨rfl, rfl, rfl, rfl, rfl, rfl⟩
example : aCalls = callsAll true [.elem (lit "a") [(lit "x", lit "1")] [.text false (lit "y"), .elem (lit "b") [] []]] := by rfl
example (c bom : Bool) : ∃ p, Printer.calls (.header bom false :: callsAll c mixedDoc) (.new c) = .ok p ∧ loadFile (some p.out) = .ok (indentAll (tab c) 0 mixedDoc) :=
  C101_load mixedDoc_printable c bom

/-- the text of a printer is this one -/
def printsIs : Out Printer → Str → Bool
  | .ok p, t => p.out == t
  | _, _ => false

theorem printsIs_eq {o : Out Printer} {t : Str} (h : printsIs o t = true) : ∃ p, o = .ok p ∧ p.out = t := by
  cases o with
  | ok p => exact ⟨p, rfl, by simpa [printsIs] using h⟩
  | err e => cases h
  | ub e => cases h

example : ∃ p, Printer.calls aCalls (.new true) = .ok p ∧ p.out = lit "<a x=\"1\">y<b/></a>" := printsIs_eq (by decide +kernel)

/-- C101: without the order of the calls it is false: an attribute behind a text becomes part of the text, and nobody notices -/
theorem C101_attr_false : ∃ cs p, ¬ Legal true 0 false cs ∧ Printer.calls cs (.new true) = .ok p ∧
    loadFile (some p.out) = .ok [.elem (lit "a") [] [.text false (lit "y x=\"1\"")]] := by
  obtain ⟨p, h1, h2⟩ := printsIs_eq (o := Printer.calls [.open_ (lit "a") true, .text false (lit "y"), .attr (lit "x") (lit "1"), .close true] (.new true))
    (t := lit "<a>y x=\"1\"</a>") (by decide +kernel)
  exact ⟨[.open_ (lit "a") true, .text false (lit "y"), .attr (lit "x") (lit "1"), .close true], p, fun h => Bool.noConfusion h.2.1, h1, by rw [h2]; rfl⟩

/-- C101: closing an element that is not open reads outside of an array -/
theorem C101_close_false (c c' : Bool) : Printer.calls [.open_ (lit "a") c, .close c, .close c] (.new c') = .ub .oob := by
  cases c <;> cases c' <;> rfl

/-! ## C102 -/

/-- C102: if the calls give a text of fewer than 2^30 - 1 bytes, the printer without a file has this text, and a null behind it, in its buffer,
whatever reallocations it took; only without memory it throws -/
theorem C102 {c : Bool} {cs : List Call} {p : Printer} (h : Printer.calls cs (.new c) = .ok p) (few : p.out.length + 1 ≤ 1073741823) (room : Nat → Bool) :
    ∃ s, MemPrinter.new room c = .ok s s.buf ∧
      ((∃ s', MemPrinter.calls room cs s = .ok () s' ∧ Holds s' p.out) ∨ (∃ s', MemPrinter.calls room cs s = .err .badAlloc s') ∧ ∃ n, room n = false) := by
  obtain ⟨s, e, hs⟩ := MemPrinter.new_ok room c
  refine ⟨s, e, ?_⟩
  rcases (MemPrinter.calls_ok (MemPrinter.fine_new c) h).1.2 few s hs with ⟨s', e1, h1⟩ | ⟨s', e1, h1⟩
  · exact .inl ⟨s', e1, h1.holds⟩
  · exact .inr ⟨⟨s', e1⟩, h1⟩

/-- C102: a document printed to memory: the buffer holds what a file would -/
theorem C102_doc {c bom : Bool} {l : List Node} {t : Str} (h : printed c bom l = .ok t) (few : t.length + 1 ≤ 1073741823) {room : Nat → Bool} (hr : ∀ n, room n = true) :
    ∃ s s', MemPrinter.new room c = .ok s s.buf ∧ MemPrinter.calls room (.header bom false :: callsAll c l) s = .ok () s' ∧ Holds s' t := by
  have e : Printer.calls (.header bom false :: callsAll c l) (.new c) = acceptDoc bom l (.new c) := by
    rw [Printer.calls]
    show Printer.calls (callsAll c l) ((Printer.new c).pushHeader bom false) = _
    unfold acceptDoc Printer.pushHeader
    cases bom
    · exact calls_acceptAll l (.new c)
    · exact calls_acceptAll l ((Printer.new c).put [0xEF, 0xBB, 0xBF])
  unfold printed at h
  cases hd : acceptDoc bom l (.new c) with
  | ok p =>
    rw [hd] at h
    injection h with h
    subst h
    obtain ⟨s, h1, ⟨s', h2, h3⟩ | ⟨-, n, hn⟩⟩ := C102 (e.trans hd) few room
    · exact ⟨s, s', h1, h2, h3⟩
    · rw [hr] at hn; cases hn
  | err x => rw [hd] at h; cases h
  | ub x => rw [hd] at h; cases h

/-- C102: after `ClearBuffer` with no element open, a printer is as new: the buffer holds the text of the further calls only -/
theorem C102_clear {c : Bool} {cs ds : List Call} {p q : Printer} (h1 : Printer.calls cs (.new c) = .ok p) (closed : p.stack = []) (h2 : Printer.calls ds (.new c) = .ok q)
    (few : p.out.length + 1 ≤ 1073741823) (few' : q.out.length + 1 ≤ 1073741823) {room : Nat → Bool} (hr : ∀ n, room n = true) :
    ∃ s s', MemPrinter.new room c = .ok s s.buf ∧ (do MemPrinter.calls room cs; MemPrinter.clearBuffer room; MemPrinter.calls room ds) s = .ok () s' ∧ Holds s' q.out := by
  obtain ⟨s, e, hs⟩ := MemPrinter.new_ok room c
  have no : ∀ {P : Prop}, (∃ n, room n = false) → P := fun ⟨n, hn⟩ => by rw [hr] at hn; cases hn
  rcases (MemPrinter.calls_ok (room := room) (MemPrinter.fine_new c) h1).1.2 few s hs with ⟨s1, e1, hs1⟩ | ⟨-, -, hn⟩
  · obtain ⟨s2, e2, hs2⟩ := MemPrinter.clear_ok room hs1 ((calm_new c).calls cs h1) closed
    rcases (MemPrinter.calls_ok (room := room) (MemPrinter.fine_new c) h2).1.2 few' s2 hs2 with ⟨s3, e3, hs3⟩ | ⟨-, -, hn⟩
    · exact ⟨s, s3, e, (M.bind_ok e1).trans ((M.bind_ok e2).trans e3), hs3.holds⟩
    · exact no hn
  · exact no hn

/-- the size of the buffer after the calls -/
def sizeAfter (m : MemPrinter.P Unit) : Res (Dyn.DA Byte) MemPrinter → Int
  | .ok s _ => match m s with
    | .ok () s' => s'.buf.size
    | _ => 0
  | _ => 0

/-- C102: emptied while an element is open it is not as new: the end of the start tag and the indentation of the next element are in the buffer -/
theorem C102_clear_false : ∃ s s', MemPrinter.new (fun _ => true) false = .ok s s.buf ∧
    (do MemPrinter.calls (fun _ => true) [.open_ (lit "a") false]; MemPrinter.clearBuffer (fun _ => true); MemPrinter.calls (fun _ => true) [.open_ (lit "b") false]) s = .ok () s' ∧
    MemPrinter.cStrSize s' = .ok 8 s' := by
  obtain ⟨s, e, -⟩ := MemPrinter.new_ok (fun _ => true) false
  have h : sizeAfter (do MemPrinter.calls (fun _ => true) [.open_ (lit "a") false]; MemPrinter.clearBuffer (fun _ => true); MemPrinter.calls (fun _ => true) [.open_ (lit "b") false])
    (MemPrinter.new (fun _ => true) false) = 8 := by decide +kernel
  rw [e] at h
  unfold sizeAfter at h
  dsimp only at h
  split at h
  · rename_i s' e'
    refine ⟨s, s', e, e', ?_⟩
    rw [← h]; rfl
  · cases h

/-- C102: closing an element that is not open is undefined here too -/
theorem C102_close {c : Bool} {cs : List Call} {u : UB} (h : Printer.calls cs (.new c) = .ub u)
    (few : ∀ ds q, ds <+: cs → Printer.calls ds (.new c) = .ok q → q.out.length + 1 ≤ 1073741823) {room : Nat → Bool} (hr : ∀ n, room n = true) :
    ∃ s, MemPrinter.new room c = .ok s s.buf ∧ MemPrinter.calls room cs s = .ub u := by
  obtain ⟨s, e, hs⟩ := MemPrinter.new_ok room c
  exact ⟨s, e, MemPrinter.calls_ub (MemPrinter.fine_new c) hs h hr few⟩

/-- thirty bytes: more than the place inside the buffer -/
example : ∃ p, Printer.calls [.open_ (lit "abcdefghijklm") true, .text false (lit "xyz<"), .close true] (.new true) = .ok p ∧ p.out.length + 1 ≤ 1073741823 ∧ p.stack = [] := by
  refine ⟨_, rfl, by decide +kernel, rfl⟩

example : ∃ t, printed true true mixedDoc = .ok t ∧ t.length + 1 ≤ 1073741823 := by
  refine ⟨_, rfl, by decide +kernel⟩

end Verif.Props
