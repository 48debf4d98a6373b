import Verif.Proof.XPool4
import Verif.Model.Xml.Dom
/-!
# C88, C89: `DynArray` and `MemPoolT`
-/
namespace Verif.Props
open Verif.Proof Verif.Xml

/-! ## C88 -/
section C88
open Verif.Spec.Grow Verif.Xml.Dyn

variable {V : Type}

/-- C88: a `DynArray` answers every sequence of calls as the list it stands for does, as long as no call needs more than half of `INT_MAX` cells and there is memory;
the destructor then leaves no array behind.  `N` is `INITIAL_SIZE`. -/
theorem C88 (N : Nat) (hN : (N : Int) ≤ INT_MAX) (room : Nat → Bool) (hr : ∀ n, room n = true) (os : List (Op V)) (h : safe 1073741823 os ([] : List (Option V))) :
    ∃ as s l, execAll room os (make N) = .ok as s ∧ Steps [] os as l ∧ Is N s l ∧ ∃ s', destroy s = .ok () s' ∧ ∀ b, s'.heap b = none := by
  obtain ⟨as, s, l, e, hs, hi⟩ := da_steps room hr 1073741823 (by decide) os (da_make N hN) h
  exact ⟨as, s, l, e, hs, hi, da_destroy hi⟩

/-- C88, one call: with memory, or without need for it, the call does what it does to the list.  The capacity then is the old one if that suffices, and else twice what is needed. -/
theorem C88_call {N : Nat} {s : DA V} {l : List (Option V)} (h : Is N s l) (room : Nat → Bool) (o : Op V) (hm : may l o)
    (hc : s.allocated < need l o → (need l o : Int) * 2 ≤ INT_MAX ∧ room s.asked = true) :
    ∃ a s' l', exec room o s = .ok a s' ∧ Step l o a l' ∧ Is N s' l' ∧
      s'.allocated = (if (need l o : Int) ≤ s.allocated then s.allocated else (need l o : Int) * 2) ∧
      s'.asked = (if (need l o : Int) ≤ s.allocated then s.asked else s.asked + 1) := da_step h room o hm hc

/-- C88: without memory the call throws, and the list is as before -/
theorem C88_memory {N : Nat} {s : DA V} {l : List (Option V)} (h : Is N s l) (room : Nat → Bool) (o : Op V) (hc : s.allocated < need l o)
    (hm : (need l o : Int) * 2 ≤ INT_MAX) (hr : room s.asked = false) : ∃ s', exec room o s = .err .badAlloc s' ∧ Is N s' l := da_step_err h room o hc hm hr

/-- C88: a call that has to enlarge the array to more than half of `INT_MAX` is undefined -/
theorem C88_overflow {N : Nat} {s : DA V} {l : List (Option V)} (h : Is N s l) (room : Nat → Bool) (o : Op V) (hc : s.allocated < need l o)
    (hm : INT_MAX < (need l o : Int) * 2) : exec room o s = .ub .overflow := da_step_ub h room o hc hm

/-- C88: an array with room for 10 takes 1610612734 entries, and the next one is undefined although the number of entries is an `int` and there is memory -/
theorem C88_limit (room : Nat → Bool) (hr : ∀ n, room n = true) (vs : List V) (v : V) :
    (vs.length ≤ 1610612734 → ∃ as s, execAll room (vs.map .push) (make 10) = .ok as s ∧ Is 10 s (vs.map some)) ∧
      (vs.length = 1610612734 → execAll room ((vs ++ [v]).map .push) (make 10) = .ub .overflow) := by
  have key : vs.length ≤ 1610612734 → _ := fun hle => da_pushes (N := 10) room hr 27 (by norm_num [INT_MAX]) vs (k := 0) (da_make 10 (by decide)) (by norm_num [make]) (by decide)
    (by simp only [List.length_nil, Nat.zero_add]; norm_num; omega)
  refine ⟨fun hle => ?_, fun he => ?_⟩
  · obtain ⟨as, s, k, e, h, -⟩ := key hle
    exact ⟨as, s, e, h⟩
  · obtain ⟨as, s, k, e, h, ha, hk⟩ := key (Nat.le_of_eq he)
    rw [List.map_append]
    refine da_execAll_append room (.push v) _ _ _ _ e ?_
    have h28 : (12 : Int) * 2 ^ k ≤ 12 * 2 ^ 27 := by
      have : (2 : Int) ^ k ≤ 2 ^ 27 := pow_le_pow_right₀ (by omega) hk
      omega
    refine da_step_ub h room (.push v) ?_ ?_
    · simp only [need, List.nil_append, List.length_map, he]
      norm_num at ha h28 ⊢
      omega
    · simp only [need, List.nil_append, List.length_map, he]
      decide

/-- C88: the list of unlinked nodes of a document (`Dom.lean`) changes as a `DynArray` does -/
theorem C88_unlinked (l : List Nat) (c : Nat) (h : c ∈ l) :
    ∃ v, (l.map some).getLast? = some (some v) ∧ (Dom.swapRemove c l).map some = ((l.map some).set (l.idxOf c) (some v)).dropLast := by
  have hne : l ≠ [] := List.ne_nil_of_mem h
  refine ⟨l.getLast hne, by rw [List.getLast?_map, List.getLast?_eq_some_getLast hne]; rfl, ?_⟩
  unfold Dom.swapRemove
  rw [if_pos (List.idxOf_lt_length_of_mem h), List.getLast?_eq_some_getLast hne, List.dropLast_eq_take, ← List.map_set, ← List.map_take]
  simp

/-- the calls of a small program are permitted -/
example : ∃ as s l, execAll (fun _ => true) [Op.push 5, .push 6, .push 7, .swapRemove 0, .get 0, .pop, .size] (make 2) = .ok as s ∧ l = [some 7] ∧ Is 2 s l := by
  have h : safe 1073741823 [Op.push 5, .push 6, .push 7, .swapRemove 0, .get 0, .pop, .size] ([] : List (Option Nat)) := by
    refine ⟨trivial, by decide, fun a l h => ?_⟩; cases h
    refine ⟨trivial, by decide, fun a l h => ?_⟩; cases h
    refine ⟨trivial, by decide, fun a l h => ?_⟩; cases h
    refine ⟨⟨by decide, 7, rfl⟩, by decide, fun a l h => ?_⟩; cases h; rename_i v h; cases h
    refine ⟨⟨7, rfl⟩, by decide, fun a l h => ?_⟩; cases h; rename_i v h; cases h
    refine ⟨⟨6, rfl⟩, by decide, fun a l h => ?_⟩; cases h; rename_i v h; cases h
    exact ⟨trivial, by decide, fun a l h => trivial⟩
  obtain ⟨as, s, l, e, hs, hi, -⟩ := C88 2 (by decide) _ (fun _ => rfl) _ h
  refine ⟨as, s, l, e, ?_, hi⟩
  rcases hs with _ | ⟨h1, hs⟩; cases h1
  rcases hs with _ | ⟨h1, hs⟩; cases h1
  rcases hs with _ | ⟨h1, hs⟩; cases h1
  rcases hs with _ | ⟨h1, hs⟩; cases h1; rename_i v h; cases h
  rcases hs with _ | ⟨h1, hs⟩; cases h1
  rcases hs with _ | ⟨h1, hs⟩; cases h1
  rcases hs with _ | ⟨h1, hs⟩; cases h1
  cases hs
  rfl

/-- its answers -/
example : ∃ s, execAll (fun _ => true) [Op.push 5, .push 6, .push 7, .swapRemove 0, .get 0, .pop, .size] (make 2) =
    .ok [.unit, .unit, .unit, .unit, .val 7, .val 6, .int 1] s := by
  have h : (match execAll (fun _ => true) [Op.push 5, .push 6, .push 7, .swapRemove 0, .get 0, .pop, .size] (make 2) with
      | .ok a _ => decide (a = [.unit, .unit, .unit, .unit, .val 7, .val 6, .int 1])
      | _ => false) = true := by decide +kernel
  split at h
  · rename_i a s e
    exact ⟨s, by rw [e, of_decide_eq_true h]⟩
  · cases h

/-- without memory for the third entry -/
example : ∃ s s', execAll (fun _ => false) [Op.push 5, .push 6] (make 2) = .ok [.unit, .unit] s ∧ exec (fun _ => false) (.push 7) s = .err .badAlloc s' := ⟨_, _, rfl, rfl⟩

/-- there are lists of every length -/
example (n : Nat) : ∃ vs : List Char, vs.length = n := ⟨List.replicate n 'x', List.length_replicate⟩

end C88

/-! ## C89 -/
section C89
open Verif.Spec.Items Verif.Xml.Pool

/-- C89: a `MemPoolT` hands out only items that are not in use, and leaves what their owners wrote in those in use, whatever is asked of it; its counters are right; the destructor leaves
neither blocks nor the array of their addresses behind.  `per` is `ITEMS_PER_BLOCK`. -/
theorem C89_partial (per : Nat) (hper : 0 < per) (os : List Op) (h : safe os start) (k : Nat) (hk : os.length < k) :
    ∃ as p s, execAll per k os make = .ok as p ∧ Steps start os as s ∧ Is per p s ∧
      ∃ p', destroy k p = .ok () p' ∧ (∀ b, p'.live b = false) ∧ ∀ b, p'.ptrs.heap b = none := by
  obtain ⟨as, p, s, bl, fl, e, hs, hi, hl⟩ := mp_steps hper k os (mp_make per) (by simpa using hk) h
  exact ⟨as, p, s, e, hs, ⟨bl, fl, hi⟩, mp_destroy hi k (by simp at hl; omega)⟩

/-- C89: an item in use is neither free nor reached from the free ones -/
theorem C89_apart {per : Nat} {p : MP} {s : Spec.Items.St} (h : Is per p s) : ∃ fl, Linked p.item p.root fl ∧ (∀ it ∈ s.used, it ∉ fl) ∧ s.used.Nodup := by
  obtain ⟨bl, fl, h⟩ := h
  obtain ⟨-, h2, h3⟩ := List.nodup_append.1 h.apart
  exact ⟨fl, h.free, fun it hi hf => h3 it hf it hi rfl, h2⟩

/-- C89 without the bound on the number of items handed out: taking an item and giving it back 2³¹ times is undefined, though never more than one is in use -/
theorem C89_counter_false (per : Nat) (hper : 0 < per) : churn per 2147483648 make = .ub .overflow := mp_churn_limit hper _ (by norm_num [INT_MAX])

/-- C89 without the condition that only items in use are given back: one given back twice is handed out twice -/
theorem C89_twice_false : ∃ p : MP, (do
    let a ← Alloc 4 (fun _ => true) (fun _ => true)
    Free 4 (some a)
    Free 4 (some a)
    let b ← Alloc 4 (fun _ => true) (fun _ => true)
    let c ← Alloc 4 (fun _ => true) (fun _ => true)
    pure (b, c)) make = .ok ((0, 0), (0, 0)) p := ⟨_, rfl⟩

/-- items are taken, from blocks of one item each -/
def allocs (roomP : Nat → Bool) : Nat → M MP Unit
  | 0 => pure ()
  | m + 1 => do
    let _ ← Alloc 1 (fun _ => true) roomP
    allocs roomP m

/-- C89 with too little memory: if there is memory for the block but none for the longer array of addresses, the block is lost: even the destructor leaves it -/
theorem C89_leak_false : ∃ p p', allocs (fun _ => false) 11 make = .err .badAlloc p ∧ destroy 20 p = .ok () p' ∧ p'.live 10 = true := by
  have h : (match allocs (fun _ => false) 11 make with
      | .err .badAlloc p => (match destroy 20 p with
        | .ok _ p' => p'.live 10
        | _ => false)
      | _ => false) = true := by decide +kernel
  split at h
  · rename_i p e
    split at h
    · rename_i p' e'
      exact ⟨p, p', e, e', h⟩
    · cases h
  · cases h

/-- if there is none for the block, nothing is lost -/
theorem C89_memory {per : Nat} {p : MP} {s : Spec.Items.St} (h : Is per p s) (room roomP : Nat → Bool) (hroot : p.root = none) (hr : room p.asked = false) :
    ∃ p', Alloc per room roomP p = .err .badAlloc p' ∧ Is per p' s := by
  obtain ⟨bl, fl, h⟩ := h
  have hn : newBlock room p = .err .badAlloc { p with asked := p.asked + 1 } := if_pos hr
  refine ⟨{ p with asked := p.asked + 1 }, ?_, bl, fl, ⟨h.ptrs, h.once, h.live, fun b hb => Nat.lt_succ_of_lt (h.old b hb), h.free, h.apart, h.all, h.kept, h.cur, h.n,
    h.max, h.untracked, h.count, h.int⟩⟩
  have ha : Alloc per room roomP p = (addBlock per room roomP >>= fun _ => takeItem per) p := by
    unfold Alloc
    rw [M.get_bind_run, hroot]
  exact ha.trans (M.bind_err (M.bind_err hn))

/-- a program of calls that are permitted: two items, one of them written, given back and taken again -/
example : ∃ p, execAll 4 9 [.alloc, .write (0, 0) 5, .alloc, .write (0, 1) 6, .free (0, 0), .alloc, .read (0, 1), .current, .untracked, .clear, .current] make =
    .ok [.item (0, 0), .unit, .item (0, 1), .unit, .unit, .item (0, 0), .val 6, .int 2, .int 3, .unit, .int 0] p := by
  have h : (match execAll 4 9 [.alloc, .write (0, 0) 5, .alloc, .write (0, 1) 6, .free (0, 0), .alloc, .read (0, 1), .current, .untracked, .clear, .current] make with
      | .ok a _ => decide (a = [.item (0, 0), .unit, .item (0, 1), .unit, .unit, .item (0, 0), .val 6, .int 2, .int 3, .unit, .int 0])
      | _ => false) = true := by decide +kernel
  split at h
  · rename_i a p e
    exact ⟨p, by rw [e, of_decide_eq_true h]⟩
  · cases h

example : safe [.alloc, .alloc, .current, .setTracked, .freeNull, .clear, .alloc] start := by
  refine ⟨⟨by norm_num [INT_MAX, start], by norm_num [INT_MAX, start]⟩, fun a s h => ?_⟩; cases h
  refine ⟨⟨by norm_num [INT_MAX, start], by norm_num [INT_MAX, start]⟩, fun a s h => ?_⟩; cases h
  refine ⟨trivial, fun a s h => ?_⟩; cases h
  refine ⟨show ((0 : Nat) : Int) ≤ INT_MAX by decide, fun a s h => ?_⟩; cases h
  refine ⟨trivial, fun a s h => ?_⟩; cases h
  refine ⟨trivial, fun a s h => ?_⟩; cases h
  exact ⟨⟨by norm_num [INT_MAX, start], by norm_num [INT_MAX, start]⟩, fun a s h => trivial⟩

/-- no memory for the first block -/
example : ∃ p', Alloc 4 (fun _ => false) (fun _ => true) make = .err .badAlloc p' ∧ Is 4 p' start := C89_memory ⟨[], [], mp_make 4⟩ _ _ rfl rfl

end C89
end Verif.Props
