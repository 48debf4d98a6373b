import Mathlib.Data.List.Nodup
import Verif.Model.D0
import Verif.Proof.Disp
import Verif.Props.Access
/-!
# C33: `disp_data`

`page` (`Spec/Disp.lean`) is the documented text as a list of items, `elements` the array
elements on it in the order of printing.
-/
namespace Verif.Props
open Spec
variable {V : Type} {mem : Nat → Nat → Bool} {chk : Bool} {w : World V} {aw : AWorld V}

/-- C33 (text): on an allocated array `disp_data` returns, in any build, appends exactly the
text of the page to the output and changes nothing; the value printed for an element is
the one that element access returns. -/
theorem C33 (R : Reach mem chk w aw) {x : Nat} {k : Kind} {es : List Ext} {val : Nat → List Int → Option V}
    (hx : aw.arr x = some (k, .ready es val)) (c : Bool) (fmt : Option V → String) :
    ∃ o, w.objs x = some (k, o) ∧
      (∀ out, o.disp_data c k fmt ⟨w.h, out⟩ = .ok () ⟨w.h, out ++ (page k.N (mkShape es k.locs)).map (Item.text val fmt)⟩) ∧
      ∀ c' n xs fs, Valid k es n xs fs → exec c' (.read x n xs fs) w = .ok (.val (val n (point xs fs))) w := by
  obtain ⟨L, R⟩ := R.rel
  obtain ⟨o, hb, hk, h0, r⟩ := R.arr_some hx
  refine ⟨o, hb, ?_, fun c' n xs fs v => R.read c' hx v⟩
  cases r with
  | ready r fits pos vals => exact Obj.disp_data_eq c r fits hk.2 (fun n hn ys hp => vals n hn ys hp) fmt

/-- C33 (order): the page of a 1D array lists, for every stored point in increasing order, all
components; the page of a 2D or 3D array lists the elements in the order of their addresses
0, 1, 2, … in storage. -/
theorem C33_order (N : Nat) :
    (∀ d0 : Dim, elements (page N [d0]) = (cells d0).flatMap fun i => (List.range N).map fun n => (n, [i])) ∧
    (∀ d0 d1 : Dim, (elements (page N [d0, d1])).map (fun p => p.1 * points [d0, d1] + offset [d0, d1] p.2)
      = List.range (N * points [d0, d1])) ∧
    (∀ d0 d1 d2 : Dim, (elements (page N [d0, d1, d2])).map (fun p => p.1 * points [d0, d1, d2] + offset [d0, d1, d2] p.2)
      = List.range (N * points [d0, d1, d2])) :=
  ⟨fun d0 => elements_page1 N d0, fun d0 d1 => by rw [elements_page2]; exact rows_addr _ _,
    fun d0 d1 d2 => by rw [elements_page3]; exact rows_addr _ _⟩

/-- C33 (once): every stored element is on the page, no other element, and none twice. -/
theorem C33_once (N : Nat) (sh : Shape) (hl : sh.length = 1 ∨ sh.length = 2 ∨ sh.length = 3) :
    (elements (page N sh)).Nodup ∧ ∀ n ys, (n, ys) ∈ elements (page N sh) ↔ n < N ∧ HasPt sh ys := by
  have rowsCase : ∀ sh : Shape, elements (page N sh) = ((List.range N).flatMap fun n => (rows sh).map fun ys => (n, ys)) →
      (elements (page N sh)).Nodup ∧ ∀ n ys, (n, ys) ∈ elements (page N sh) ↔ n < N ∧ HasPt sh ys := by
    intro sh e
    rw [e]
    refine ⟨?_, fun n ys => ?_⟩
    · have := rows_addr N sh
      have nd : (List.range (N * points sh)).Nodup := List.nodup_range
      rw [← this] at nd
      exact List.Nodup.of_map _ nd
    · simp only [List.mem_flatMap, List.mem_range, List.mem_map, Prod.mk.injEq]
      constructor
      · rintro ⟨m, hm, zs, hz, rfl, rfl⟩; exact ⟨hm, mem_rows.1 hz⟩
      · rintro ⟨h1, h2⟩; exact ⟨n, h1, ys, mem_rows.2 h2, rfl, rfl⟩
  match sh, hl with
  | [d0], _ =>
    rw [elements_page1]
    have e : ((cells d0).flatMap fun i => (List.range N).map fun n => (n, [i])) =
        (pairs (cells d0) (List.range N)).map fun p => (p.2, [p.1]) := by
      simp [pairs, List.map_flatMap, Function.comp_def]
    rw [e]
    refine ⟨?_, fun n ys => ?_⟩
    · refine List.Pairwise.map _ ?_ (nodup_pairs (cells_nodup d0) List.nodup_range)
      rintro ⟨a, b⟩ ⟨a', b'⟩ h h'
      simp only [Prod.mk.injEq, List.cons.injEq, and_true] at h'
      exact h (Prod.ext h'.2 h'.1)
    · simp only [List.mem_map, Prod.mk.injEq]
      constructor
      · rintro ⟨⟨a, b⟩, h, rfl, rfl⟩
        rw [mem_pairs] at h
        exact ⟨List.mem_range.1 h.2, mem_cells.1 h.1, trivial⟩
      · rintro ⟨h1, h2⟩
        match ys, h2 with
        | [y], h2 => exact ⟨(y, n), mem_pairs.2 ⟨mem_cells.2 h2.1, List.mem_range.2 h1⟩, rfl, rfl⟩
  | [d0, d1], _ => exact rowsCase _ (elements_page2 N d0 d1)
  | [d0, d1, d2], _ => exact rowsCase _ (elements_page3 N d0 d1 d2)

/-- the page of a 2D array with one component: two lines of two and a closing point -/
example : (page 1 [⟨⟨1, 1, 0⟩, .center⟩, ⟨⟨0, 1, 0⟩, .half⟩]).map (Item.text (fun n ys => some (n + ys.length)) fun v => toString (v.getD 0)) =
    ["N = ", "0", "\n", "2", ", ", "2", ", ", "\n", "2", ", ", "2", ", ", "\n", "\n"] := by decide +kernel

/-- an allocated array exists (array 0 of the demo history: 1D, half, two components) -/
example (chk : Bool) : ∃ (w : World Int) (aw : AWorld Int), Reach (fun _ _ => true) chk w aw ∧
    aw.arr 0 = some (⟨2, [.half]⟩, .ready [⟨1, 2, 1⟩] fun _ _ => none) := by
  obtain ⟨w, aw, R, h, -⟩ := demo chk
  exact ⟨w, aw, R, h⟩

/-- C33 (0D): a 0D array prints its components in order, and changes nothing. -/
theorem C33_d0 (N : Nat) (hN : N < 4294967296) (fmt : Option V → String) (o : D0.PD V) (out : List String) :
    D0.PD.disp_data N fmt o out = .ok () (out ++ (List.range N).flatMap fun n => [fmt (o.pt0 n), ", "]) := by
  unfold D0.PD.disp_data
  have e : List.range N = nats 0 N := by rw [nats_range]; simp
  rw [forU_eq _ _ (Nat.zero_le _) hN, Nat.sub_zero, e]
  have key : ∀ (l : List Nat) (out : List String), (∀ n ∈ l, n < N) →
      runAll (fun n => if n < N then M.modify (fun out => out ++ [fmt (o.pt0 n), ", "]) else M.undef .oob) l out
        = .ok () (out ++ l.flatMap fun n => [fmt (o.pt0 n), ", "]) := by
    intro l
    induction l with
    | nil => intro out _; simp
    | cons a l ih =>
      intro out h
      rw [runAll_cons, if_pos (h a (by simp)), M.bind_ok (m := M.modify fun out => out ++ [fmt (o.pt0 a), ", "]) (s := out) (a := ())
          (s' := out ++ [fmt (o.pt0 a), ", "]) rfl,
        ih _ (fun n hn => h n (by simp [hn]))]
      simp
  exact key _ _ fun n hn => by rw [mem_nats] at hn; omega

example : D0.PD.disp_data 2 (fun v => toString (v.getD 0)) (⟨fun n => some (n : Int)⟩ : D0.PD Int) [] = .ok () ["0", ", ", "1", ", "] := by
  rw [C33_d0 _ (by decide)]; rfl

/-- C33 needs an allocated array: printing an unallocated 1D half located array reads
through a null pointer. -/
theorem C33_unallocated (chk : Bool) (fmt : Option Int → String) (out : List String) :
    Obj.disp_data chk ⟨1, [.half]⟩ fmt (.d1 { pt0 := fun _ => .null }) ⟨(World.init fun _ _ => true : World Int).h, out⟩ = .ub .null := by
  cases chk <;> rfl

end Verif.Props
