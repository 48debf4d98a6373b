import Verif.Proof.LifecycleAll
import Verif.Props.Access
/-!
# C11 beyond machine range
-/
namespace Verif.Props
open Spec
variable {V : Type} {mem : Nat → Nat → Bool} {chk : Bool} {w : World V} {aw : AWorld V}

/-- C11, products that wrap to zero: if the points of every dimension fit `int` but their
product is a multiple of 2^32, `alloc` on an empty array returns normally and nothing at all has changed. -/
theorem C11_wrap (R : Reach mem chk w aw) {x : Nat} {k : Kind} (hx : aw.arr x = some (k, .empty)) (c : Bool)
    (es : List Ext) (hl : es.length = k.locs.length) (hd : ∀ e ∈ es, e.n + e.i + e.p + 1 < 2147483648) (he : sizeErrs 0 es = none)
    (hp : 4294967296 ∣ points (mkShape es k.locs)) : exec c (.alloc x es) w = .ok .unit w := by
  obtain ⟨L, R⟩ := R.rel
  obtain ⟨o, hb, hk, h0, r⟩ := R.arr_some hx
  have em : ObjEmpty k o := by cases r with | empty e => exact e
  refine call_ok_same (f := fun k => Obj.alloc c k es) hb ?_
  cases em with
  | @d1 N L0 o e =>
    match es, hl with
    | [e0], _ =>
      refine wrap_ok (D1.PD.alloc_none c e.data (hd e0 (by simp)) he ?_)
      have h1 := hd e0 (by simp)
      simp only [mkShape, points, Dim.width, Nat.mul_one] at hp ⊢
      have h2 : L0.toNat ≤ 1 := by cases L0 <;> simp [Loc.toNat]
      omega
  | @d2 N L0 L1 o e =>
    match es, hl with
    | [e0, e1], _ => exact wrap_ok (D2.PD.alloc_wrap c e.data (hd e0 (by simp)) (hd e1 (by simp)) he hp)
  | @d3 N L0 L1 L2 o e =>
    match es, hl with
    | [e0, e1, e2], _ => exact wrap_ok (D3.PD.alloc_wrap c e.data (hd e0 (by simp)) (hd e1 (by simp)) (hd e2 (by simp)) he hp)

/-- the hypotheses are met: 131072 × 98304 × 2048 points -/
example : (4294967296 ∣ points (mkShape [⟨0, 131072, 0⟩, ⟨8192, 81920, 8192⟩, ⟨0, 2047, 0⟩] [.center, .center, .half])) ∧
    sizeErrs 0 [⟨0, 131072, 0⟩, ⟨8192, 81920, 8192⟩, ⟨0, 2047, 0⟩] = none := by decide

/-- C11 is false also for a storage that is not empty: seven components of 2^30 points each
ask for 7·2^30 elements, that is 3·2^30 modulo 2^32.  `alloc` returns normally, `size()` reports 2^30 points; but
components 0 and 4 share their elements, and component 3 begins where the storage ends. -/
theorem C11_false_alias :
    (run (V := Int) true
      [.make 0 ⟨7, [.center]⟩ (fun _ => .null), .alloc 0 [⟨0, 1073741824, 0⟩], .size 0, .write 0 0 [5] [.C] 42, .read 0 4 [5] [.C]]
      (World.init fun _ _ => true)).map (·.1)
      = some [.ret .unit, .ret .unit, .ret (.sizes [(0, 1073741824, 0)]), .ret .unit, .ret (.val (some 42))] ∧
    run (V := Int) true
      [.make 0 ⟨7, [.center]⟩ (fun _ => .null), .alloc 0 [⟨0, 1073741824, 0⟩], .read 0 3 [0] [.C]] (World.init fun _ _ => true) = none := by
  decide +kernel

end Verif.Props
