import Verif.Proof.CopyProps
import Verif.Spec.Disp
/-!
# What `disp_data` prints
-/
namespace Verif
open Spec
variable {V : Type}

/-- the statement appends `l` to the output and changes nothing else -/
def Prints (h : Heap V) (m : M (St V (List String)) Unit) (l : List String) : Prop :=
  ∀ out, m ⟨h, out⟩ = .ok () ⟨h, out ++ l⟩

namespace Prints
variable {h : Heap V}

theorem nil : Prints h (pure ()) [] := fun out => by rw [List.append_nil]; rfl

theorem seq {m m' : M (St V (List String)) Unit} {l l' : List String} (a : Prints h m l) (b : Prints h m' l') :
    Prints h (do m; m') (l ++ l') := fun out => by
  rw [M.bind_ok (a out), b, List.append_assoc]

theorem lift {α : Type} {x : Out α} {a : α} {f : α → M (St V (List String)) Unit} {l : List String} (hx : x = .ok a)
    (p : Prints h (f a) l) : Prints h (liftM x >>= f) l := fun out => by
  subst hx
  exact p out

theorem out (l : List String) : Prints h (St.modObj (fun out => out ++ l)) l := fun _ => rfl

theorem load {m : M (Heap V) (Option V)} {v : Option V} (hm : m h = .ok v h) (g : Option V → List String) :
    Prints h (do let v ← St.heap m; St.modObj (fun out => out ++ g v)) (g v) := fun out => by
  have : St.heap m (⟨h, out⟩ : St V (List String)) = .ok v ⟨h, out⟩ := by unfold St.heap; rw [hm]
  rw [M.bind_ok this]; rfl

theorem all {α : Type} {fn : α → M (St V (List String)) Unit} {g : α → List String} (l : List α) (hf : ∀ a ∈ l, Prints h (fn a) (g a)) :
    Prints h (runAll fn l) (l.flatMap g) := by
  induction l with
  | nil => exact nil
  | cons a l ih =>
    rw [runAll_cons, List.flatMap_cons]
    exact seq (hf a (by simp)) (ih fun b hb => hf b (by simp [hb]))

end Prints

theorem ints_range (b : Int) (k : Nat) : ints b k = (List.range k).map fun (t : Nat) => (t : Int) + b := by
  induction k generalizing b with
  | zero => rfl
  | succ k ih =>
    rw [ints, ih, List.range_succ_eq_map]
    simp only [List.map_cons, List.map_map]
    congr 1
    · simp
    · congr 1; funext t; simp only [Function.comp]; push_cast; omega

theorem nats_range (b k : Nat) : nats b k = (List.range k).map fun t => t + b := by
  induction k generalizing b with
  | zero => rfl
  | succ k ih =>
    rw [nats, ih, List.range_succ_eq_map]
    simp only [List.map_cons, List.map_map]
    congr 1
    · simp
    · congr 1; funext t; simp only [Function.comp]; omega

theorem cells_ints (d : Dim) : cells d = ints (-(d.ext.n : Int)) d.width := by
  rw [ints_range]; rfl

theorem mem_cells {d : Dim} {x : Int} : x ∈ cells d ↔ d.Has x := by
  rw [cells_ints, mem_ints]; unfold Dim.Has Dim.width; push_cast; omega

theorem Prints.forI {h : Heap V} {fn : Int → M (St V (List String)) Unit} {g : Int → List String} {d : Dim} {b e : Int}
    (hb : b = -(d.ext.n : Int)) (he : e = d.ext.i + d.ext.p + d.loc.toNat) (hf : ∀ i, d.Has i → Prints h (fn i) (g i)) :
    Prints h (forI b e fn) ((cells d).flatMap g) := by
  have e1 : e = b + (d.width : Int) := by rw [hb, he]; unfold Dim.width; push_cast; omega
  rw [e1, forI_eq _ _ (by omega), cells_ints, hb, Int.toNat_natCast]
  refine Prints.all _ fun i hi => hf i ?_
  rw [← mem_cells, cells_ints]; exact hi

theorem Prints.forU {h : Heap V} {fn : Nat → M (St V (List String)) Unit} {g : Nat → List String} {N : Nat} (hN : N < 4294967296)
    (hf : ∀ n < N, Prints h (fn n) (g n)) : Prints h (forU 0 N fn) ((List.range N).flatMap g) := by
  have e1 : List.range N = nats 0 N := by rw [nats_range]; simp
  rw [forU_eq _ _ (Nat.zero_le _) hN, Nat.sub_zero, e1]
  refine Prints.all _ fun n hn => hf n ?_
  rw [mem_nats] at hn; omega

theorem text_flatMap {α : Type} (l : List α) (f : α → List Item) (val : Nat → List Int → Option V) (fmt : Option V → String) :
    (l.flatMap f).map (Item.text val fmt) = l.flatMap fun a => (f a).map (Item.text val fmt) := by
  rw [List.map_flatMap]

/-- `disp_data` of an array whose points can be read -/
theorem Sized.disp_data {chk : Bool} {k : Kind} {es : List Ext} {o : Obj} {h : Heap V} {val : Nat → List Int → Option V} (z : Sized o es)
    (hl : es.length = k.locs.length) (hN : k.N < 4294967296) (df : ∀ e ∈ es, e.n + e.i + e.p + 1 < 2147483648)
    (ld : ∀ n < k.N, ∀ ys, HasPt (mkShape es k.locs) ys →
      (do let q ← Obj.elem k o n ys; Heap.loadV q : M (Heap V) (Option V)) h = .ok (val n ys) h) (fmt : Option V → String) :
    Prints h (Obj.disp_data chk k fmt o) ((page k.N (mkShape es k.locs)).map (Item.text val fmt)) := by
  have i1 : ∀ e : Ext, e.n + e.i + e.p + 1 < 2147483648 → ∀ l : Loc, InI32 ((e.i : Int) + e.p + l.toNat) ∧ InI32 (-(e.n : Int)) ∧ InI32 ((e.i : Int) + e.p) := by
    intro e he l
    have := loc_le l
    unfold InI32; omega
  cases z with
  | @d1 o e0 hz h0 =>
    match k, hl with
    | ⟨N, [L0]⟩, _ =>
      obtain ⟨f1, f2, f3⟩ := i1 e0 (df e0 (by simp)) L0
      obtain ⟨g1, g2, -, -⟩ := D1.sz_acc_0 chk e0 h0 .ALL
      simp only [Obj.disp_data, D1.PD.disp_data, hz]
      refine .lift g1 (.lift g2 (.lift (i32_ok (by simpa [tagEnd] using f1)) ?_))
      simp only [mkShape, page, text_flatMap, List.map_append, List.map_cons, List.map_nil, Item.text]
      refine .forI (d := ⟨e0, L0⟩) rfl rfl fun i hi => .seq (.forU hN fun n hn => ?_) (.out _)
      exact .load (ld n hn [i] ⟨hi, trivial⟩) _
  | @d2 o e0 e1 hz h0 h1 =>
    match k, hl with
    | ⟨N, [L0, L1]⟩, _ =>
      obtain ⟨f1, f2, f3⟩ := i1 e0 (df e0 (by simp)) L0
      obtain ⟨f4, f5, f6⟩ := i1 e1 (df e1 (by simp)) L1
      obtain ⟨g1, g2, -, -⟩ := D2.sz_acc_0 chk e0 e1 h0 .ALL
      obtain ⟨g3, g4, -, -⟩ := D2.sz_acc_1 chk e0 e1 h1 .ALL
      simp only [Obj.disp_data, D2.PD.disp_data, hz]
      refine .lift g1 (.lift g2 (.lift (i32_ok (by simpa [tagEnd] using f1)) ?_))
      refine .lift g3 (.lift g4 (.lift (i32_ok (by simpa [tagEnd] using f4)) ?_))
      simp only [mkShape, page, text_flatMap, List.map_append, List.map_cons, List.map_nil, Item.text]
      refine .forU hN fun n hn => ?_
      rw [List.append_assoc]
      refine .seq (.out _) (.seq ?_ (.out _))
      refine .forI (d := ⟨e0, L0⟩) rfl rfl fun i hi => .seq ?_ (.out _)
      refine .forI (d := ⟨e1, L1⟩) rfl rfl fun j hj => ?_
      exact .load (ld n hn [i, j] ⟨hi, hj, trivial⟩) _
  | @d3 o e0 e1 e2 hz h0 h1 h2 =>
    match k, hl with
    | ⟨N, [L0, L1, L2]⟩, _ =>
      obtain ⟨f1, f2, f3⟩ := i1 e0 (df e0 (by simp)) L0
      obtain ⟨f4, f5, f6⟩ := i1 e1 (df e1 (by simp)) L1
      obtain ⟨f7, f8, f9⟩ := i1 e2 (df e2 (by simp)) L2
      obtain ⟨g1, g2, -, -⟩ := D3.sz_acc_0 chk e0 e1 e2 h0 .ALL
      obtain ⟨g3, g4, -, -⟩ := D3.sz_acc_1 chk e0 e1 e2 h1 .ALL
      obtain ⟨g5, g6, -, -⟩ := D3.sz_acc_2 chk e0 e1 e2 h2 .ALL
      simp only [Obj.disp_data, D3.PD.disp_data, hz]
      refine .lift g1 (.lift g2 (.lift (i32_ok (by simpa [tagEnd] using f1)) ?_))
      refine .lift g3 (.lift g4 (.lift (i32_ok (by simpa [tagEnd] using f4)) ?_))
      refine .lift g5 (.lift g6 (.lift (i32_ok (by simpa [tagEnd] using f7)) ?_))
      simp only [mkShape, page, text_flatMap, List.map_append, List.map_cons, List.map_nil, Item.text]
      refine .forU hN fun n hn => ?_
      rw [List.append_assoc]
      refine .seq (.out _) (.seq ?_ (.out _))
      refine .forI (d := ⟨e0, L0⟩) rfl rfl fun i hi => .seq (.out _) ?_
      refine .forI (d := ⟨e1, L1⟩) rfl rfl fun j hj => .seq ?_ (.out _)
      refine .forI (d := ⟨e2, L2⟩) rfl rfl fun l hl => ?_
      exact .load (ld n hn [i, j, l] ⟨hi, hj, hl, trivial⟩) _

/-- `disp_data` of an allocated array -/
theorem Obj.disp_data_eq (chk : Bool) {k : Kind} {es : List Ext} {o : Obj} {h : Heap V} {B : Nat} {c : Nat → Option V}
    {val : Nat → List Int → Option V} (r : ObjReady k es o h B c) (fits : ShapeFits k.N (mkShape es k.locs)) (hN : k.N < 4294967296)
    (hv : ∀ n < k.N, ∀ ys, HasPt (mkShape es k.locs) ys →
      c (n * points (mkShape es k.locs) + offset (mkShape es k.locs) ys) = val n ys) (fmt : Option V → String) :
    Prints h (Obj.disp_data chk k fmt o) ((page k.N (mkShape es k.locs)).map (Item.text val fmt)) := by
  have df := dimsFit_of (k := k) ⟨r.len, fits⟩
  have ld : ∀ n < k.N, ∀ ys, HasPt (mkShape es k.locs) ys →
      (do let q ← Obj.elem k o n ys; Heap.loadV q : M (Heap V) (Option V)) h = .ok (val n ys) h := by
    intro n hn ys hp
    rw [M.bind_ok (Obj.elem_eq r hn hp), Heap.loadV_at r.blk (addr_lt hn hp), hv n hn ys hp]
  exact (r.sized fits).disp_data r.len hN df ld fmt

/-! ## the order of printing -/

theorem elements_append (a b : List Item) : elements (a ++ b) = elements a ++ elements b := List.filterMap_append

theorem elements_flatMap {α : Type} (l : List α) (f : α → List Item) : elements (l.flatMap f) = l.flatMap fun a => elements (f a) := by
  induction l with
  | nil => rfl
  | cons a l ih => rw [List.flatMap_cons, List.flatMap_cons, elements_append, ih]

theorem range_mul (a b : Nat) : List.range (a * b) = (List.range a).flatMap fun t => (List.range b).map fun u => t * b + u := by
  induction a with
  | zero => simp
  | succ a ih =>
    rw [Nat.succ_mul, List.range_add, ih, List.range_succ, List.flatMap_append]
    simp

/-- the points of a shape in lexicographic order -/
def rows : Shape → List (List Int)
  | [] => [[]]
  | d :: sh => (cells d).flatMap fun i => (rows sh).map fun ys => i :: ys

theorem rows_offset (sh : Shape) : (rows sh).map (offset sh) = List.range (points sh) := by
  induction sh with
  | nil => rfl
  | cons d sh ih =>
    simp only [rows, points, cells]
    rw [range_mul, List.map_flatMap, List.flatMap_map]
    congr 1
    funext t
    rw [List.map_map, ← ih, List.map_map]
    congr 1
    funext ys
    simp only [Function.comp, offset]
    congr 2
    omega

theorem mem_rows {sh : Shape} {ys : List Int} : ys ∈ rows sh ↔ HasPt sh ys := by
  induction sh generalizing ys with
  | nil => cases ys <;> simp [rows, HasPt]
  | cons d sh ih =>
    cases ys with
    | nil => simp [rows, HasPt]
    | cons y ys =>
      simp only [rows, HasPt, List.mem_flatMap, List.mem_map, List.cons.injEq, mem_cells]
      constructor
      · rintro ⟨i, hi, zs, hz, rfl, rfl⟩; exact ⟨hi, ih.1 hz⟩
      · rintro ⟨h1, h2⟩; exact ⟨y, h1, ys, ih.2 h2, rfl, rfl⟩

theorem elements_page2 (N : Nat) (d0 d1 : Dim) :
    elements (page N [d0, d1]) = (List.range N).flatMap fun n => (rows [d0, d1]).map fun ys => (n, ys) := by
  simp only [page, rows, elements_flatMap, elements_append, List.map_flatMap, List.map_map]
  congr 1; funext n
  simp only [elements, List.filterMap_cons, List.filterMap_nil, List.nil_append, List.append_nil]
  rfl

theorem elements_page3 (N : Nat) (d0 d1 d2 : Dim) :
    elements (page N [d0, d1, d2]) = (List.range N).flatMap fun n => (rows [d0, d1, d2]).map fun ys => (n, ys) := by
  simp only [page, rows, elements_flatMap, elements_append, List.map_flatMap, List.map_map]
  congr 1; funext n
  simp only [elements, List.filterMap_cons, List.filterMap_nil, List.nil_append, List.append_nil]
  rfl

theorem elements_page1 (N : Nat) (d0 : Dim) :
    elements (page N [d0]) = (cells d0).flatMap fun i => (List.range N).map fun n => (n, [i]) := by
  simp only [page, elements_flatMap, elements_append]
  congr 1; funext i
  simp [elements, List.map_eq_flatMap]

/-- row-major printing is printing in storage order -/
theorem rows_addr (N : Nat) (sh : Shape) :
    ((List.range N).flatMap fun n => (rows sh).map fun ys => (n, ys)).map (fun p : Nat × List Int => p.1 * points sh + offset sh p.2)
      = List.range (N * points sh) := by
  rw [range_mul, List.map_flatMap]
  congr 1; funext n
  rw [List.map_map, ← rows_offset sh, List.map_map]
  rfl

theorem cells_nodup (d : Dim) : (cells d).Nodup := by
  rw [cells_ints]
  exact nodup_of_pairwise_lt (ints_sorted _ _)

end Verif
