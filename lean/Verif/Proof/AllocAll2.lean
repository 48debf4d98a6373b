import Verif.Proof.AllocAll
import Verif.Proof.TecW1
import Verif.Spec.Verdict
/-!
# The outcome of `alloc` and `realloc` for all `unsigned` arguments
-/
namespace Verif
open Spec
variable {V : Type}

/-- what the sizeVerdict means for the code -/
def Out.ofSizeVerdict : SizeVerdict → Out Unit
  | .refused d => .err (.sizeIn d)
  | .passed => .ok ()
  | .undefined => .ub .overflow

theorem toI32_asInt {u : Nat} (h : u < 4294967296) : toI32 u = asInt u := by
  unfold toI32 asInt; rw [Nat.mod_eq_of_lt h]

theorem asInt_zero {u : Nat} (h : u < 4294967296) : asInt u = 0 ↔ u = 0 := by
  unfold asInt; split <;> omega

theorem checkDim_all (d : Nat) {e : Ext} (h : e.n < 4294967296 ∧ e.i < 4294967296 ∧ e.p < 4294967296) {rest : Out Unit} {es : List Ext}
    (hr : rest = Out.ofSizeVerdict (sizeVerdict (d + 1) es)) :
    ((if toI32 e.i = 0 then do let t ← i32 (toI32 e.n + toI32 e.p); if t ≠ 0 then .err (.sizeIn d) else .ok () else .ok () : Out Unit)
      >>= fun _ => rest) = Out.ofSizeVerdict (sizeVerdict d (e :: es)) := by
  obtain ⟨h1, h2, h3⟩ := h
  rw [toI32_asInt h1, toI32_asInt h2, toI32_asInt h3]
  unfold sizeVerdict
  by_cases hi : e.i = 0
  · rw [if_pos ((asInt_zero h2).2 hi), if_neg (by simp [hi])]
    by_cases ho : asInt e.n + asInt e.p < -2147483648 ∨ 2147483647 < asInt e.n + asInt e.p
    · rw [if_pos ho]
      unfold i32
      rw [if_neg (by unfold InI32; omega)]
      rfl
    · rw [if_neg ho]
      unfold i32
      rw [if_pos (by unfold InI32; omega)]
      by_cases hz : asInt e.n + asInt e.p = 0
      · rw [hz, hr]; rfl
      · rw [if_pos hz]
        show (Out.bind (if asInt e.n + asInt e.p ≠ 0 then .err (.sizeIn d) else .ok ()) fun _ => rest) = _
        rw [if_pos hz]; rfl
  · rw [if_neg (fun h => hi ((asInt_zero h2).1 h)), if_pos hi, hr]; rfl

theorem out_seq_unit (x : Out Unit) : (x >>= fun _ => Out.ok ()) = x := by cases x <;> rfl

theorem D1.check_all {a : Ext} (h : Unsigned [a]) : (D1.SizeT.new a.n a.i a.p).check = Out.ofSizeVerdict (sizeVerdict 0 [a]) := by
  have := checkDim_all 0 (h a (by simp)) (rest := .ok ()) (es := []) rfl
  rw [out_seq_unit] at this
  exact this

theorem D2.check_all {a b : Ext} (h : Unsigned [a, b]) :
    (D2.SizeT.new a.n a.i a.p b.n b.i b.p).check = Out.ofSizeVerdict (sizeVerdict 0 [a, b]) := by
  have h1 := checkDim_all 1 (h b (by simp)) (rest := .ok ()) (es := []) rfl
  rw [out_seq_unit] at h1
  exact checkDim_all 0 (h a (by simp)) h1

theorem D3.check_all {a b c : Ext} (h : Unsigned [a, b, c]) :
    (D3.SizeT.new a.n a.i a.p b.n b.i b.p c.n c.i c.p).check = Out.ofSizeVerdict (sizeVerdict 0 [a, b, c]) := by
  have h2 := checkDim_all 2 (h c (by simp)) (rest := .ok ()) (es := []) rfl
  rw [out_seq_unit] at h2
  have h1 := checkDim_all 1 (h b (by simp)) h2
  exact checkDim_all 0 (h a (by simp)) h1

/-! ## after the check -/

/-- a computation that returns or is undefined -/
def Mild {α : Type} (x : Out α) : Prop := ∀ e, x ≠ .err e

theorem Mild.bind {α β : Type} {x : Out α} {f : α → Out β} (h : Mild x) (h' : ∀ a, Mild (f a)) : Mild (x >>= f) := by
  cases x with
  | ok a => exact h' a
  | err e => exact absurd rfl (h e)
  | ub u => exact fun e h => nomatch h

theorem Mild.ok {α : Type} (a : α) : Mild (Out.ok a) := fun _ h => nomatch h
theorem Mild.i32 (x : Int) : Mild (i32 x) := by
  unfold Verif.i32; split
  · exact .ok _
  · exact fun e h => nomatch h
theorem Mild.check_d {chk : Bool} {D d : Nat} (h : d < D) : Mild (check_d chk D d) := by rw [check_d_ok h]; exact .ok _

theorem D1.size_mild (chk : Bool) (s : D1.SizeT) : Mild (s.size chk 0 .ALL) := by
  unfold D1.SizeT.size D1.SizeT.end_ D1.SizeT.begin_
  exact ((Mild.check_d (by decide)).bind fun _ => .i32 _).bind fun _ => ((Mild.check_d (by decide)).bind fun _ => .i32 _).bind fun _ =>
    (Mild.i32 _).bind fun _ => .ok _

theorem D2.sel_mild {a b : Int} {d : Nat} (h : d < 2) : Mild (D2.sel a b d) := by
  match d, h with
  | 0, _ => exact .ok _
  | 1, _ => exact .ok _

theorem D2.size_mild (chk : Bool) (s : D2.SizeT) {d : Nat} (h : d < 2) : Mild (s.size chk d .ALL) := by
  unfold D2.SizeT.size D2.SizeT.end_ D2.SizeT.begin_
  exact ((Mild.check_d h).bind fun _ => (D2.sel_mild h).bind fun _ => (D2.sel_mild h).bind fun _ => .i32 _).bind fun _ =>
    ((Mild.check_d h).bind fun _ => (D2.sel_mild h).bind fun _ => .i32 _).bind fun _ => (Mild.i32 _).bind fun _ => .ok _

theorem D3.sel_mild {a b c : Int} {d : Nat} (h : d < 3) : Mild (D3.sel a b c d) := by
  match d, h with
  | 0, _ => exact .ok _
  | 1, _ => exact .ok _
  | 2, _ => exact .ok _

theorem D3.size_mild (chk : Bool) (s : D3.SizeT) {d : Nat} (h : d < 3) : Mild (s.size chk d .ALL) := by
  unfold D3.SizeT.size D3.SizeT.end_ D3.SizeT.begin_
  exact ((Mild.check_d h).bind fun _ => (D3.sel_mild h).bind fun _ => (D3.sel_mild h).bind fun _ => .i32 _).bind fun _ =>
    ((Mild.check_d h).bind fun _ => (D3.sel_mild h).bind fun _ => .i32 _).bind fun _ => (Mild.i32 _).bind fun _ => .ok _

/-- what the rest of `alloc` can do: nothing, get a storage whose length fits `unsigned`, or run out of memory -/
structure Gets {O : Type} (dat : O → Ptr) (r : Res (St V O) Unit) (s : St V O) : Prop where
  ok : ∀ t, r = .ok () t → t = s ∨ Held dat t
  err : ∀ e t, r = .err e t → e = .noMemory

theorem Gets.lift {O α : Type} {dat : O → Ptr} {x : Out α} (hx : Mild x) {f : α → M (St V O) Unit} {s : St V O} (h : ∀ a, Gets dat (f a s) s) :
    Gets dat ((liftM x >>= f) s) s := by
  cases x with
  | ok a => exact h a
  | err e => exact absurd rfl (hx e)
  | ub u => exact ⟨fun t h => (nomatch h), fun e t h => (nomatch h)⟩

theorem Gets.tryAlloc {O : Type} {dat : O → Ptr} {m : M (St V O) Unit} {s : St V O}
    (h : (∀ t, m s = .ok () t → Held dat t) ∧ ∀ e t, m s = .err e t → e = .badAlloc) : Gets dat (tryAlloc m s) s := by
  unfold Verif.tryAlloc M.catchAs
  cases hm : m s with
  | ok a t => exact ⟨fun t' h' => by cases h'; exact .inr (h.1 t hm), fun e t' h' => nomatch h'⟩
  | err e t =>
    obtain rfl := h.2 e t hm
    exact ⟨fun t' h' => (nomatch h'), fun e t' h' => by cases h'; rfl⟩
  | ub u => exact ⟨fun t h => (nomatch h), fun e t h => (nomatch h)⟩

/-- `alloc` on an array without storage -/
structure AllocAll {O : Type} (dat : O → Ptr) (v : SizeVerdict) (r : Res (St V O) Unit) (s : St V O) : Prop where
  refused : ∀ d, v = .refused d → r = .err (.sizeIn d) s
  undefined : v = .undefined → r = .ub .overflow
  passed : v = .passed → Gets dat r s

theorem AllocAll.intro {O : Type} {dat : O → Ptr} {v : SizeVerdict} {m : M (St V O) Unit} {s : St V O} (h : Gets dat (m s) s) :
    AllocAll dat v ((liftM (Out.ofSizeVerdict v) >>= fun _ => m) s) s := by
  refine ⟨?_, ?_, ?_⟩
  · rintro d rfl; rfl
  · rintro rfl; rfl
  · rintro rfl; exact h

theorem D1.alloc_all (chk : Bool) (N : Nat) (L0 : Loc) {a : Ext} (h : Unsigned [a]) {s : St V D1.PD} (hd : s.o.data = .null) :
    AllocAll D1.PD.data (sizeVerdict 0 [a]) (D1.PD.alloc chk N L0 a.n a.i a.p s) s := by
  unfold D1.PD.alloc
  rw [M.bind_ok (St.obj_run _)]; simp only; rw [if_neg (by simp [hd]), D1.check_all h]
  refine .intro (.lift (D1.size_mild _ _) fun z0 => ?_)
  split
  · exact .tryAlloc (D1.allocMem_all _ _ _ _ _)
  · exact ⟨fun t h => by cases h; exact .inl rfl, fun e t h => nomatch h⟩

theorem D2.alloc_all (chk : Bool) (N : Nat) (L0 L1 : Loc) {a b : Ext} (h : Unsigned [a, b]) {s : St V D2.PD} (hd : s.o.data = .null) :
    AllocAll D2.PD.data (sizeVerdict 0 [a, b]) (D2.PD.alloc chk N L0 L1 a.n a.i a.p b.n b.i b.p s) s := by
  unfold D2.PD.alloc
  rw [M.bind_ok (St.obj_run _)]; simp only; rw [if_neg (by simp [hd]), D2.check_all h]
  refine .intro (.lift (D2.size_mild _ _ (by decide)) fun z0 => .lift (D2.size_mild _ _ (by decide)) fun z1 => ?_)
  split
  · exact .tryAlloc (D2.allocMem_all _ _ _ _ _ _)
  · exact ⟨fun t h => by cases h; exact .inl rfl, fun e t h => nomatch h⟩

theorem D3.alloc_all (chk : Bool) (N : Nat) (L0 L1 L2 : Loc) {a b c : Ext} (h : Unsigned [a, b, c]) {s : St V D3.PD} (hd : s.o.data = .null) :
    AllocAll D3.PD.data (sizeVerdict 0 [a, b, c]) (D3.PD.alloc chk N L0 L1 L2 a.n a.i a.p b.n b.i b.p c.n c.i c.p s) s := by
  unfold D3.PD.alloc
  rw [M.bind_ok (St.obj_run _)]; simp only; rw [if_neg (by simp [hd]), D3.check_all h]
  refine .intro (.lift (D3.size_mild _ _ (by decide)) fun z0 => .lift (D3.size_mild _ _ (by decide)) fun z1 =>
    .lift (D3.size_mild _ _ (by decide)) fun z2 => ?_)
  split
  · exact .tryAlloc (D3.allocMem_all _ _ _ _ _ _ _)
  · exact ⟨fun t h => by cases h; exact .inl rfl, fun e t h => nomatch h⟩

/-! ## the objects -/

/-- the member `data` — PointData_1D.hpp:238, PointData_2D.hpp:339, PointData_3D.hpp:449 -/
def Obj.data : Obj → Ptr
  | .d1 o => o.data
  | .d2 o => o.data
  | .d3 o => o.data

theorem AllocAll.wrap {O : Type} {dat : O → Ptr} {v : SizeVerdict} {mk : O → Obj} {m : M (St V O) Unit} {h : Heap V} {o : O}
    (hm : ∀ o, (mk o).data = dat o) (a : AllocAll dat v (m ⟨h, o⟩) ⟨h, o⟩) : AllocAll Obj.data v (St.wrap mk m h o) ⟨h, mk o⟩ := by
  unfold St.wrap
  refine ⟨fun d hv => ?_, fun hv => ?_, fun hv => ⟨fun t ht => ?_, fun e t ht => ?_⟩⟩
  · rw [a.refused d hv]
  · rw [a.undefined hv]
  · split at ht
    · rename_i s hs
      cases ht
      rcases (a.passed hv).ok _ hs with rfl | ⟨B, len, cell, h1, h2⟩
      · exact .inl rfl
      · exact .inr ⟨B, len, cell, by rw [hm]; exact h1, h2⟩
    · cases ht
    · cases ht
  · split at ht
    · cases ht
    · rename_i s hs; cases ht; exact (a.passed hv).err _ _ hs
    · cases ht

theorem Obj.alloc_all (chk : Bool) {k : Kind} {o : Obj} (e : ObjEmpty k o) (h : Heap V) {es : List Ext} (hl : es.length = k.locs.length)
    (hu : Unsigned es) : AllocAll Obj.data (sizeVerdict 0 es) (Obj.alloc chk k es ⟨h, o⟩) ⟨h, o⟩ := by
  cases e with
  | @d1 N L0 o e => match es, hl with | [a], _ => exact (D1.alloc_all chk N L0 hu e.data).wrap fun _ => rfl
  | @d2 N L0 L1 o e => match es, hl with | [a, b], _ => exact (D2.alloc_all chk N L0 L1 hu e.data).wrap fun _ => rfl
  | @d3 N L0 L1 L2 o e => match es, hl with | [a, b, c], _ => exact (D3.alloc_all chk N L0 L1 L2 hu e.data).wrap fun _ => rfl

/-- `realloc` checks first and then is `clear` and `alloc` -/
theorem Obj.realloc_all (chk : Bool) {k o} (t : Typed k o) (h : Heap V) {es : List Ext} (hl : es.length = k.locs.length) (hu : Unsigned es) :
    Obj.realloc chk k es ⟨h, o⟩ = match sizeVerdict 0 es with
      | .refused d => .err (.sizeIn d) ⟨h, o⟩
      | .undefined => .ub .overflow
      | .passed => (do Obj.clear k; Obj.alloc chk k es) ⟨h, o⟩ := by
  cases t with
  | @d1 N L0 o =>
    match es, hl with
    | [a], _ =>
      have e : ∀ x : Out Unit, x = Out.ofSizeVerdict (sizeVerdict 0 [a]) → St.wrap (V := V) .d1 (do
          M.lift x; D1.PD.clear N; D1.PD.alloc chk N L0 a.n a.i a.p) h o = match sizeVerdict 0 [a] with
          | .refused d => .err (.sizeIn d) ⟨h, .d1 o⟩
          | .undefined => .ub .overflow
          | .passed => (do Obj.clear ⟨N, [L0]⟩; Obj.alloc chk ⟨N, [L0]⟩ [a]) ⟨h, .d1 o⟩ := by
        rintro x rfl
        cases sizeVerdict 0 [a] with
        | refused d => rfl
        | undefined => rfl
        | passed =>
          simp only [Out.ofSizeVerdict, M.lift_ok, pure_bind]
          exact wrap_bind rfl (fun _ _ _ => rfl)
      exact e _ (D1.check_all hu)
  | @d2 N L0 L1 o =>
    match es, hl with
    | [a, b], _ =>
      have e : ∀ x : Out Unit, x = Out.ofSizeVerdict (sizeVerdict 0 [a, b]) → St.wrap (V := V) .d2 (do
          M.lift x; D2.PD.clear; D2.PD.alloc chk N L0 L1 a.n a.i a.p b.n b.i b.p) h o = match sizeVerdict 0 [a, b] with
          | .refused d => .err (.sizeIn d) ⟨h, .d2 o⟩
          | .undefined => .ub .overflow
          | .passed => (do Obj.clear ⟨N, [L0, L1]⟩; Obj.alloc chk ⟨N, [L0, L1]⟩ [a, b]) ⟨h, .d2 o⟩ := by
        rintro x rfl
        cases sizeVerdict 0 [a, b] with
        | refused d => rfl
        | undefined => rfl
        | passed =>
          simp only [Out.ofSizeVerdict, M.lift_ok, pure_bind]
          exact wrap_bind rfl (fun _ _ _ => rfl)
      exact e _ (D2.check_all hu)
  | @d3 N L0 L1 L2 o =>
    match es, hl with
    | [a, b, c], _ =>
      have e : ∀ x : Out Unit, x = Out.ofSizeVerdict (sizeVerdict 0 [a, b, c]) → St.wrap (V := V) .d3 (do
          M.lift x; D3.PD.clear; D3.PD.alloc chk N L0 L1 L2 a.n a.i a.p b.n b.i b.p c.n c.i c.p) h o = match sizeVerdict 0 [a, b, c] with
          | .refused d => .err (.sizeIn d) ⟨h, .d3 o⟩
          | .undefined => .ub .overflow
          | .passed => (do Obj.clear ⟨N, [L0, L1, L2]⟩; Obj.alloc chk ⟨N, [L0, L1, L2]⟩ [a, b, c]) ⟨h, .d3 o⟩ := by
        rintro x rfl
        cases sizeVerdict 0 [a, b, c] with
        | refused d => rfl
        | undefined => rfl
        | passed =>
          simp only [Out.ofSizeVerdict, M.lift_ok, pure_bind]
          exact wrap_bind rfl (fun _ _ _ => rfl)
      exact e _ (D3.check_all hu)

end Verif
