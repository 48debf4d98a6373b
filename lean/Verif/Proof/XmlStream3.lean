import Verif.Proof.XmlStream2
import Verif.Spec.XmlStream
/-!
# Sequences of calls
-/
namespace Verif.Xml.MemPrinter
open Tec Dyn Spec.Grow Verif.Proof

variable {room : Nat → Bool} {p p1 p2 p' : Printer}

theorem newLine_same (p : Printer) : p.newLine.stack = p.stack ∧ p.newLine.depth = p.depth ∧ p.out.length ≤ p.newLine.out.length := by
  unfold Printer.newLine
  dsimp only
  split
  · exact ⟨rfl, rfl, Nat.le_trans (put_le p _) (printSpace_le _)⟩
  · exact ⟨rfl, rfl, Nat.le_refl _⟩

theorem Fine.keep (h : Fine p) (h1 : p'.stack = p.stack) (h2 : p'.depth = p.depth) (h3 : p.out.length ≤ p'.out.length) : Fine p' :=
  ⟨by rw [h1, h2]; exact h.depth, by rw [h1]; exact Nat.le_trans h.out h3⟩

theorem Fine.put (h : Fine p) (t : Str) : Fine (p.put t) := h.keep rfl rfl (put_le p t)

theorem Fine.sealed (h : Fine p) : Fine p.sealed :=
  h.keep (sealed_same p).1 (sealed_same p).2.1 (sealed_le p)

theorem Fine.newLine (h : Fine p) : Fine p.newLine :=
  h.keep (newLine_same p).1 (newLine_same p).2.1 (newLine_same p).2.2

theorem call_ok {c : Call} (h : Fine p) (e : p.call c = .ok p') : Does room (call room c) p p' ∧ Fine p' := by
  cases c with
  | header b d =>
    injection e with e; subst e
    refine ⟨Does.header b d, ?_⟩
    unfold Printer.pushHeader
    dsimp only
    split <;> split
    · exact (h.put _).sealed.newLine.put _
    · exact h.sealed.newLine.put _
    · exact h.put _
    · exact h
  | open_ n c =>
    injection e with e; subst e
    obtain ⟨h1, h2, h3⟩ := openAs_same (p := p) n c
    refine ⟨Does.open_ n c h, ⟨?_, ?_⟩⟩
    · rw [h1, h2, h.depth]; rfl
    · rw [h1, List.length_cons]; have := h.out; omega
  | attr n v => injection e with e; subst e; exact ⟨Does.attr n v, h.put _⟩
  | text c v =>
    injection e with e; subst e
    refine ⟨Does.text c v h, ?_⟩
    have hf : Fine { p with textDepth := p.depth - 1 } := h.keep rfl rfl (Nat.le_refl _)
    unfold Printer.pushText
    dsimp only
    split <;> exact hf.sealed.put _
  | comment v => injection e with e; subst e; exact ⟨Does.comment v, h.sealed.newLine.put _⟩
  | decl v => injection e with e; subst e; exact ⟨Does.decl v, h.sealed.newLine.put _⟩
  | unknown v => injection e with e; subst e; exact ⟨Does.unknown v, h.sealed.newLine.put _⟩
  | close c =>
    cases hs : p.stack with
    | nil =>
      have : p.closeAs c = .ub .oob := by unfold Printer.closeAs; rw [hs]
      rw [Printer.call, this] at e; cases e
    | cons name rest =>
      rw [Printer.call, closeAs_eq c hs] at e
      injection e with e; subst e
      refine ⟨Does.close c h hs, ?_⟩
      obtain ⟨h1, h2⟩ := close4_same (p := p) name rest c
      have a := close2_le (p := p) name rest c
      have b := close3_le (p := p) name rest c
      have d := close4_le (p := p) name rest c
      have hd := h.depth
      have ho := h.out
      rw [hs, List.length_cons] at hd ho
      refine ⟨?_, ?_⟩
      · show (close4 p name rest c).depth = ((close4 p name rest c).stack.length : Int)
        rw [h1, h2]; omega
      · show (close4 p name rest c).stack.length ≤ (close4 p name rest c).out.length
        rw [h1]; omega

theorem calls_ok {cs : List Call} (h : Fine p) (e : Printer.calls cs p = .ok p') : Does room (calls room cs) p p' ∧ Fine p' := by
  induction cs generalizing p with
  | nil => injection e with e; subst e; exact ⟨Does.pure, h⟩
  | cons c cs ih =>
    rw [Printer.calls] at e
    cases hc : p.call c with
    | ok p1 =>
      rw [hc] at e
      obtain ⟨d1, f1⟩ := call_ok (room := room) h hc
      obtain ⟨d2, f2⟩ := ih f1 e
      exact ⟨d1.bind d2, f2⟩
    | err x => rw [hc] at e; cases e
    | ub x => rw [hc] at e; cases e

theorem fine_new (compact : Bool) : Fine (.new compact) := ⟨rfl, Nat.le_refl _⟩

theorem new_ok (room : Nat → Bool) (compact : Bool) : ∃ s, new room compact = .ok s s.buf ∧ Sim s (.new compact) := by
  obtain ⟨r, b', l', e, st, hi, -⟩ := da_step (da_make (V := Byte) 20 (by decide)) room (.push 0) trivial fun hlt => by
    have : (20 : Int) < 1 := hlt
    omega
  cases st with
  | push =>
    have e' : (Push room 0 >>= fun _ => (Pure.pure Ans.unit : M (DA Byte) (Ans Byte))) (make 20) = .ok .unit b' := e
    cases hp : Push room (0 : Byte) (make 20) with
    | ok u b =>
      rw [M.bind_ok hp] at e'
      injection e' with _ e2
      subst e2
      exact ⟨⟨b, false, [], true, 0, -1, compact⟩, by unfold new; rw [hp], ⟨rfl, rfl, rfl, rfl, rfl, rfl, hi⟩⟩
    | err e1 b1 => rw [M.bind_err hp] at e'; cases e'
    | ub u => rw [M.bind_ub hp] at e'; cases e'

theorem Sim.holds {s : MemPrinter} (h : Sim s p) : Holds s p.out := by
  refine ⟨?_, fun i b hb => ?_, ?_⟩
  · have : Size s.buf = .ok ((p.out.length : Int) + 1) s.buf := by
      unfold Size; rw [h.buf.size]; simp
    exact onBuf_ok this
  · exact onBuf_ok (da_load h.buf (i := i) (v := b) (by
      rw [List.getElem?_append_left (by simpa using (List.getElem?_eq_some_iff.1 hb).1), List.getElem?_map, hb]; rfl))
  · exact onBuf_ok (da_load h.buf (i := p.out.length) (v := 0) (by
      rw [List.getElem?_append_right (by simp)]; simp))

/-- closing an element that is not open is undefined for both printers -/
theorem calls_ub {cs : List Call} {u : UB} (h : Fine p) {s : MemPrinter} (hs : Sim s p) (e : Printer.calls cs p = .ub u)
    (hr : ∀ n, room n = true) (hl : ∀ ds q, ds <+: cs → Printer.calls ds p = .ok q → q.out.length + 1 ≤ limit) :
    calls room cs s = .ub u := by
  induction cs generalizing p s with
  | nil => cases e
  | cons c cs ih =>
    rw [Printer.calls] at e
    cases hc : p.call c with
    | ok p1 =>
      rw [hc] at e
      obtain ⟨d1, f1⟩ := call_ok (room := room) h hc
      have hone : Printer.calls [c] p = .ok p1 := by rw [Printer.calls, hc]; rfl
      rcases d1.2 (hl [c] p1 ⟨cs, rfl⟩ hone) s hs with ⟨s1, e1, hs1⟩ | ⟨-, -, n, hn⟩
      · refine (M.bind_ok e1).trans (ih f1 hs1 e fun ds q hp hq => ?_)
        refine hl (c :: ds) q ?_ (by rw [Printer.calls, hc]; exact hq)
        obtain ⟨t, ht⟩ := hp
        exact ⟨t, by rw [List.cons_append, ht]⟩
      · rw [hr] at hn; cases hn
    | err x => rw [hc] at e; cases e
    | ub x =>
      rw [hc] at e
      injection e with e
      subst e
      cases c with
      | close c =>
        cases hk : p.stack with
        | nil =>
          have hx : p.closeAs c = .ub .oob := by unfold Printer.closeAs; rw [hk]
          rw [Printer.call, hx] at hc
          injection hc with hc
          subst hc
          refine M.bind_ub ?_
          have hd : s.depth = 0 := by rw [hs.depth, h.depth, hk]; rfl
          show closeElement room c s = _
          unfold closeElement
          rw [M.get_bind_run, hd, hs.stack, hk]
          rfl
        | cons name rest =>
          rw [Printer.call, closeAs_eq c hk] at hc
          cases hc
      | _ => cases hc

end Verif.Xml.MemPrinter

namespace Verif.Xml
open Tec

/-! ## Calls and trees -/

theorem calls_append (a b : List Call) (p : Printer) : Printer.calls (a ++ b) p = (do let q ← Printer.calls a p; Printer.calls b q) := by
  induction a generalizing p with
  | nil => rfl
  | cons c a ih =>
    rw [List.cons_append, Printer.calls, Printer.calls]
    cases p.call c with
    | ok q => exact ih q
    | err e => rfl
    | ub u => rfl

theorem calls_attrs (as : List (Str × Str)) (p : Printer) :
    Printer.calls (as.map fun a => .attr a.1 a.2) p = .ok (as.foldl Printer.pushAttribute p) := by
  induction as generalizing p with
  | nil => rfl
  | cons a as ih => exact ih _

theorem openElement_as (p : Printer) (n : Str) : p.openElement n = p.openAs n p.compact := by
  unfold Printer.openElement Printer.openAs
  have h : p.sealed.compact = p.compact := by unfold Printer.sealed; split <;> rfl
  dsimp only
  rw [h]
  split <;> simp [Printer.put]

theorem closeElement_as (p : Printer) : p.closeElement = p.closeAs p.compact := by
  unfold Printer.closeElement Printer.closeAs
  rcases p with ⟨out, jo, st, fi, d, td, c⟩
  cases st with
  | nil => rfl
  | cons n r =>
    dsimp only
    by_cases h1 : jo = true
    · rw [if_pos h1]
      by_cases h2 : td = d - 1
      · simp [Printer.put, h2]
      · simp [Printer.put, h2]
    · rw [if_neg h1]
      by_cases h3 : td < 0 ∧ ¬ c = true
      · rw [if_pos h3]
        by_cases h2 : td = d - 1
        · simp [Printer.put, Printer.printSpace, h2]
        · simp [Printer.put, Printer.printSpace, h2]
      · rw [if_neg h3]
        by_cases h2 : td = d - 1
        · simp [Printer.put, h2]
        · simp [Printer.put, h2]

theorem openElement_compact (p : Printer) (n : Str) : (p.openElement n).compact = p.compact := by
  unfold Printer.openElement
  have h : p.sealed.compact = p.compact := by unfold Printer.sealed; split <;> rfl
  dsimp only
  split <;> split <;> exact h

theorem newLine_mode (p : Printer) : p.sealed.newLine.compact = p.compact := by
  have h : p.sealed.compact = p.compact := by unfold Printer.sealed; split <;> rfl
  unfold Printer.newLine
  dsimp only
  split <;> exact h

theorem text_compact (p : Printer) (c : Bool) (v : Str) : (p.pushText c v).compact = p.compact := by
  unfold Printer.pushText Printer.sealed
  dsimp only
  split <;> split <;> rfl

theorem close_compact {p q : Printer} (h : p.closeElement = .ok q) : q.compact = p.compact := by
  rw [closeElement_as] at h
  cases hs : p.stack with
  | nil =>
    have : p.closeAs p.compact = .ub .oob := by unfold Printer.closeAs; rw [hs]
    rw [this] at h; cases h
  | cons n r =>
    unfold Printer.closeAs at h
    rw [hs] at h
    injection h with h
    subst h
    dsimp only
    split <;> split <;> split <;> first | rfl | (split <;> rfl)

theorem attrs_compact (as : List (Str × Str)) (p : Printer) : (as.foldl Printer.pushAttribute p).compact = p.compact := by
  induction as generalizing p with
  | nil => rfl
  | cons a as ih => exact ih _

mutual
/-- printing a node leaves the mode -/
theorem accept_mode : ∀ (x : Node) (p q : Printer), x.accept p = .ok q → q.compact = p.compact
  | .elem n as cs, p, q, h => by
    rw [Node.accept] at h
    cases h1 : acceptAll cs (as.foldl Printer.pushAttribute (p.openElement n)) with
    | ok r =>
      rw [h1] at h
      have := acceptAll_mode cs _ _ h1
      rw [close_compact h, this, attrs_compact, openElement_compact]
    | err x => rw [h1] at h; cases h
    | ub x => rw [h1] at h; cases h
  | .text c v, p, q, h => by rw [Node.accept] at h; injection h with h; subst h; exact text_compact p c v
  | .comment v, p, q, h => by rw [Node.accept] at h; injection h with h; subst h; exact newLine_mode p
  | .decl v, p, q, h => by rw [Node.accept] at h; injection h with h; subst h; exact newLine_mode p
  | .unknown v, p, q, h => by rw [Node.accept] at h; injection h with h; subst h; exact newLine_mode p

theorem acceptAll_mode : ∀ (l : List Node) (p q : Printer), acceptAll l p = .ok q → q.compact = p.compact
  | [], p, q, h => by rw [acceptAll] at h; injection h with h; subst h; rfl
  | x :: l, p, q, h => by
    rw [acceptAll] at h
    cases h1 : x.accept p with
    | ok r =>
      rw [h1] at h
      rw [acceptAll_mode l r q h, accept_mode x p r h1]
    | err x => rw [h1] at h; cases h
    | ub x => rw [h1] at h; cases h
end

mutual
/-- the calls of a node do what printing the node does -/
theorem calls_accept : ∀ (x : Node) (p : Printer), Printer.calls (x.calls p.compact) p = x.accept p
  | .elem n as cs, p => by
    rw [Node.calls, Node.accept, List.cons_append, List.cons_append, Printer.calls]
    show Printer.calls _ (p.openAs n p.compact) = _
    rw [← openElement_as, List.append_assoc, calls_append, calls_attrs]
    show Printer.calls _ (as.foldl Printer.pushAttribute (p.openElement n)) = _
    have hc : (as.foldl Printer.pushAttribute (p.openElement n)).compact = p.compact := by rw [attrs_compact, openElement_compact]
    rw [calls_append]
    have := calls_acceptAll cs (as.foldl Printer.pushAttribute (p.openElement n))
    rw [hc] at this
    rw [this]
    cases h1 : acceptAll cs (as.foldl Printer.pushAttribute (p.openElement n)) with
    | ok r =>
      have hr : r.compact = p.compact := (acceptAll_mode cs _ _ h1).trans hc
      show Printer.calls [.close p.compact] r = r.closeElement
      rw [closeElement_as, hr, Printer.calls]
      show (r.closeAs p.compact >>= fun s => Printer.calls [] s) = _
      cases r.closeAs p.compact <;> rfl
    | err x => rfl
    | ub x => rfl
  | .text c v, p => by rw [Node.calls, Node.accept]; rfl
  | .comment v, p => by rw [Node.calls, Node.accept]; rfl
  | .decl v, p => by rw [Node.calls, Node.accept]; rfl
  | .unknown v, p => by rw [Node.calls, Node.accept]; rfl

theorem calls_acceptAll : ∀ (l : List Node) (p : Printer), Printer.calls (callsAll p.compact l) p = acceptAll l p
  | [], p => by rw [callsAll, acceptAll]; rfl
  | x :: l, p => by
    rw [callsAll, acceptAll, calls_append, calls_accept x p]
    cases h1 : x.accept p with
    | ok r =>
      have hr := accept_mode x p r h1
      show Printer.calls (callsAll p.compact l) r = acceptAll l r
      rw [← hr]
      exact calls_acceptAll l r
    | err x => rfl
    | ub x => rfl
end

/-! ## Legal sequences are trees -/

theorem legal_weaken {c : Bool} {k : Nat} {cs : List Call} (h : Legal c k false cs) : Legal c k true cs := by
  cases cs with
  | nil => exact h
  | cons x l => cases x <;> cases k <;> first | exact h | exact ⟨rfl, h.2⟩

mutual
theorem calls_legal (c : Bool) : ∀ (x : Node) (k : Nat) (f : Bool) (cs : List Call), Legal c k false cs → Legal c k f (x.calls c ++ cs)
  | .elem n as l, k, f, cs, h => by
    rw [Node.calls, List.cons_append, List.cons_append, List.cons_append]
    refine ⟨rfl, ?_⟩
    rw [List.append_assoc, List.append_assoc]
    have h1 : Legal c (k + 1) false (callsAll c l ++ ([.close c] ++ cs)) := callsAll_legal c l (k + 1) false _ ⟨rfl, h⟩
    clear h
    induction as with
    | nil => exact legal_weaken h1
    | cons a as ih => exact ⟨rfl, ih⟩
  | .text _ v, k, f, cs, h => by rw [Node.calls]; cases k <;> exact h
  | .comment v, k, f, cs, h => by rw [Node.calls]; cases k <;> exact h
  | .decl v, k, f, cs, h => by rw [Node.calls]; cases k <;> exact h
  | .unknown v, k, f, cs, h => by rw [Node.calls]; cases k <;> exact h

theorem callsAll_legal (c : Bool) : ∀ (l : List Node) (k : Nat) (f : Bool) (cs : List Call), Legal c k false cs → Legal c k f (callsAll c l ++ cs)
  | [], k, f, cs, h => by
    rw [callsAll]
    cases f
    · exact h
    · exact legal_weaken h
  | x :: l, k, f, cs, h => by
    rw [callsAll, List.append_assoc]
    exact calls_legal c x k f _ (callsAll_legal c l k false cs h)
end

/-- the nodes that are left of the open elements, from the innermost, and those behind them -/
def leftOf (c : Bool) : List (List Node) → List Node → List Call
  | [], l => callsAll c l
  | ns :: up, l => callsAll c ns ++ .close c :: leftOf c up l

theorem leftOf_add {c : Bool} (x : Node) (up : List (List Node)) (l : List Node) :
    ∃ up' l', up'.length = up.length ∧ x.calls c ++ leftOf c up l = leftOf c up' l' := by
  cases up with
  | nil => exact ⟨[], x :: l, rfl, by rw [leftOf, leftOf, callsAll]⟩
  | cons ns up => exact ⟨(x :: ns) :: up, l, rfl, by rw [leftOf, leftOf, callsAll, List.append_assoc]⟩

theorem legal_left {c : Bool} : ∀ (cs : List Call) (k : Nat) (f : Bool), Legal c k f cs →
    ∃ (as : List (Str × Str)) (up : List (List Node)) (l : List Node),
      up.length = k ∧ cs = as.map (fun a => Call.attr a.1 a.2) ++ leftOf c up l ∧ (f = false → as = [])
  | [], k, f, h => by
    have h : k = 0 := h
    subst h
    exact ⟨[], [], [], rfl, by rw [leftOf, callsAll]; rfl, fun _ => rfl⟩
  | .header _ _ :: _, k, f, h => by cases k <;> exact h.elim
  | .attr n v :: cs, k, f, h => by
    have h : f = true ∧ Legal c k true cs := by cases k <;> exact h
    obtain ⟨as, up, l, h1, h2, -⟩ := legal_left cs k true h.2
    exact ⟨(n, v) :: as, up, l, h1, by rw [h2]; rfl, fun e => by rw [h.1] at e; cases e⟩
  | .open_ n c' :: cs, k, f, h => by
    have h : c' = c ∧ Legal c (k + 1) true cs := by cases k <;> exact h
    obtain ⟨as, up, l, h1, h2, -⟩ := legal_left cs (k + 1) true h.2
    cases up with
    | nil => cases h1
    | cons ns up =>
      obtain ⟨up', l', h3, h4⟩ := leftOf_add (c := c) (.elem n as ns) up l
      refine ⟨[], up', l', by rw [h3]; exact Nat.succ.inj h1, ?_, fun _ => rfl⟩
      rw [List.map_nil, List.nil_append, ← h4, h2, h.1, leftOf, Node.calls]
      simp
  | .close c' :: cs, 0, f, h => h.elim
  | .close c' :: cs, k + 1, f, h => by
    have h : c' = c ∧ Legal c k false cs := h
    obtain ⟨as, up, l, h1, h2, h3⟩ := legal_left cs k false h.2
    refine ⟨[], [] :: up, l, by rw [List.length_cons, h1], ?_, fun _ => rfl⟩
    rw [h2, h3 rfl, h.1, leftOf, callsAll]; rfl
  | .text b v :: cs, k, f, h => by
    have h : Legal c k false cs := by cases k <;> exact h
    obtain ⟨as, up, l, h1, h2, h3⟩ := legal_left cs k false h
    obtain ⟨up', l', h4, h5⟩ := leftOf_add (c := c) (.text b v) up l
    refine ⟨[], up', l', h4.trans h1, ?_, fun _ => rfl⟩
    rw [h2, h3 rfl, List.map_nil, List.nil_append, List.nil_append, ← h5, Node.calls]; rfl
  | .comment v :: cs, k, f, h => by
    have h : Legal c k false cs := by cases k <;> exact h
    obtain ⟨as, up, l, h1, h2, h3⟩ := legal_left cs k false h
    obtain ⟨up', l', h4, h5⟩ := leftOf_add (c := c) (.comment v) up l
    refine ⟨[], up', l', h4.trans h1, ?_, fun _ => rfl⟩
    rw [h2, h3 rfl, List.map_nil, List.nil_append, List.nil_append, ← h5, Node.calls]; rfl
  | .decl v :: cs, k, f, h => by
    have h : Legal c k false cs := by cases k <;> exact h
    obtain ⟨as, up, l, h1, h2, h3⟩ := legal_left cs k false h
    obtain ⟨up', l', h4, h5⟩ := leftOf_add (c := c) (.decl v) up l
    refine ⟨[], up', l', h4.trans h1, ?_, fun _ => rfl⟩
    rw [h2, h3 rfl, List.map_nil, List.nil_append, List.nil_append, ← h5, Node.calls]; rfl
  | .unknown v :: cs, k, f, h => by
    have h : Legal c k false cs := by cases k <;> exact h
    obtain ⟨as, up, l, h1, h2, h3⟩ := legal_left cs k false h
    obtain ⟨up', l', h4, h5⟩ := leftOf_add (c := c) (.unknown v) up l
    refine ⟨[], up', l', h4.trans h1, ?_, fun _ => rfl⟩
    rw [h2, h3 rfl, List.map_nil, List.nil_append, List.nil_append, ← h5, Node.calls]; rfl

theorem legal_iff {c : Bool} {cs : List Call} : Legal c 0 false cs ↔ ∃ l, cs = callsAll c l := by
  constructor
  · intro h
    obtain ⟨as, up, l, h1, h2, h3⟩ := legal_left cs 0 false h
    rw [h3 rfl, List.length_eq_zero_iff.1 h1, leftOf] at h2
    exact ⟨l, h2⟩
  · rintro ⟨l, rfl⟩
    have := callsAll_legal c l 0 false [] rfl
    rwa [List.append_nil] at this

/-! ## One tree only -/

/-- does not begin with an attribute -/
def NoAttr : List Call → Prop
  | .attr _ _ :: _ => False
  | _ => True

/-- nothing or the end of an element -/
def Ends : List Call → Prop
  | [] => True
  | .close _ :: _ => True
  | _ => False

theorem attrs_inj : ∀ (as as' : List (Str × Str)) (s s' : List Call), NoAttr s → NoAttr s' →
    as.map (fun a => Call.attr a.1 a.2) ++ s = as'.map (fun a => Call.attr a.1 a.2) ++ s' → as = as' ∧ s = s'
  | [], [], s, s', _, _, h => ⟨rfl, h⟩
  | [], a :: as', s, s', h1, _, h => by
    have h : s = Call.attr a.1 a.2 :: _ := h
    rw [h] at h1; exact h1.elim
  | a :: as, [], s, s', _, h2, h => by
    have h : Call.attr a.1 a.2 :: _ = s' := h
    rw [← h] at h2; exact h2.elim
  | a :: as, a' :: as', s, s', h1, h2, h => by
    rw [List.map_cons, List.map_cons, List.cons_append, List.cons_append] at h
    injection h with e h
    injection e with e1 e2
    obtain ⟨h3, h4⟩ := attrs_inj as as' s s' h1 h2 h
    exact ⟨by rw [h3, Prod.ext e1 e2], h4⟩

theorem calls_first (c : Bool) (x : Node) (r : List Call) : NoAttr (x.calls c ++ r) ∧ ¬ Ends (x.calls c ++ r) := by
  cases x <;> rw [Node.calls] <;> exact ⟨trivial, fun h => h⟩

theorem callsAll_noAttr {c : Bool} (l : List Node) {r : List Call} (h : Ends r) : NoAttr (callsAll c l ++ r) := by
  cases l with
  | nil =>
    rw [callsAll]
    cases r with
    | nil => trivial
    | cons a r => cases a <;> first | exact h.elim | trivial
  | cons x l => rw [callsAll, List.append_assoc]; exact (calls_first c x _).1

mutual
theorem node_inj (c : Bool) : ∀ (x x' : Node) (r r' : List Call), x.calls c ++ r = x'.calls c ++ r' → x = x' ∧ r = r'
  | .elem n as l, .elem n' as' l', r, r', h => by
    rw [Node.calls, Node.calls] at h
    simp only [List.cons_append, List.append_assoc, List.nil_append] at h
    injection h with e h
    injection e with e
    obtain ⟨h1, h2⟩ := attrs_inj as as' _ _ (callsAll_noAttr l (r := .close c :: r) trivial) (callsAll_noAttr l' (r := .close c :: r') trivial) h
    obtain ⟨h3, h4⟩ := nodes_inj c l l' (.close c :: r) (.close c :: r') trivial trivial h2
    injection h4 with _ h4
    exact ⟨by rw [e, h1, h3], h4⟩
  | .text b v, .text b' v', r, r', h => by
    rw [Node.calls, Node.calls] at h
    injection h with e h
    injection e with e1 e2
    exact ⟨by rw [e1, e2], h⟩
  | .comment v, .comment v', r, r', h => by
    rw [Node.calls, Node.calls] at h
    injection h with e h
    injection e with e
    exact ⟨by rw [e], h⟩
  | .decl v, .decl v', r, r', h => by
    rw [Node.calls, Node.calls] at h
    injection h with e h
    injection e with e
    exact ⟨by rw [e], h⟩
  | .unknown v, .unknown v', r, r', h => by
    rw [Node.calls, Node.calls] at h
    injection h with e h
    injection e with e
    exact ⟨by rw [e], h⟩
  | .elem _ _ _, .text _ _, _, _, h | .elem _ _ _, .comment _, _, _, h | .elem _ _ _, .decl _, _, _, h | .elem _ _ _, .unknown _, _, _, h
  | .text _ _, .elem _ _ _, _, _, h | .text _ _, .comment _, _, _, h | .text _ _, .decl _, _, _, h | .text _ _, .unknown _, _, _, h
  | .comment _, .elem _ _ _, _, _, h | .comment _, .text _ _, _, _, h | .comment _, .decl _, _, _, h | .comment _, .unknown _, _, _, h
  | .decl _, .elem _ _ _, _, _, h | .decl _, .text _ _, _, _, h | .decl _, .comment _, _, _, h | .decl _, .unknown _, _, _, h
  | .unknown _, .elem _ _ _, _, _, h | .unknown _, .text _ _, _, _, h | .unknown _, .comment _, _, _, h | .unknown _, .decl _, _, _, h => by
    rw [Node.calls, Node.calls] at h
    injection h with e h
    cases e

theorem nodes_inj (c : Bool) : ∀ (l l' : List Node) (r r' : List Call), Ends r → Ends r' → callsAll c l ++ r = callsAll c l' ++ r' → l = l' ∧ r = r'
  | [], [], r, r', _, _, h => by
    rw [callsAll] at h
    exact ⟨rfl, h⟩
  | [], x :: l', r, r', h1, _, h => by
    rw [callsAll, callsAll, List.append_assoc, List.nil_append] at h
    rw [h] at h1; exact ((calls_first c x _).2 h1).elim
  | x :: l, [], r, r', _, h2, h => by
    rw [callsAll, callsAll, List.append_assoc, List.nil_append] at h
    rw [← h] at h2; exact ((calls_first c x _).2 h2).elim
  | x :: l, x' :: l', r, r', h1, h2, h => by
    rw [callsAll, callsAll, List.append_assoc, List.append_assoc] at h
    obtain ⟨h3, h4⟩ := node_inj c x x' _ _ h
    obtain ⟨h5, h6⟩ := nodes_inj c l l' r r' h1 h2 h4
    exact ⟨by rw [h3, h5], h6⟩
end

theorem callsAll_inj {c : Bool} {l l' : List Node} (h : callsAll c l = callsAll c l') : l = l' :=
  (nodes_inj c l l' [] [] trivial trivial (by rw [h])).1

end Verif.Xml
