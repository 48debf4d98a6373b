import Verif.Proof.RoundTrip
import Verif.Props.ReadPlt
import Verif.Props.TecFile
/-!
# C39: what `write_plt` writes, `read_plt` reads
-/
namespace Verif.Props
open Spec Tec
variable {V V' : Type}

/-- the log of a written file describes all variables -/
theorem written_logOk {E : Env} {echo : Bool} {s s' : FSt} {data : Nat → Nat → Str} (h : Ready s data)
    (r : TecFile.write_plt E echo s = .ok () s') (hs : ∀ z ∈ s.f.Zones, ∀ d ∈ z.Data, d.size < 2147483648) :
    LogOk s'.f.last_log := by
  obtain ⟨-, -, -, hv, hl, hz⟩ := C38_log h r
  obtain ⟨c, pt, -, hd, -⟩ := C38 h r
  have key : ∀ l ∈ s'.f.last_log.Zones, ∃ (i : Nat) (z : Zone), s.f.Zones[i]? = some z ∧ s'.f.last_log.Zones[i]? = some l ∧
      l.Data.length = z.Data.length ∧ z.Data.length = s.f.Variables.length ∧
      l.Real_Max = ⟨(z.sel 0).count, (z.sel 1).count, (z.sel 2).count⟩ := by
    intro l hm
    obtain ⟨i, hi⟩ := List.mem_iff_getElem?.1 hm
    have hil : i < s.f.Zones.length := by rw [← hl]; exact (List.getElem?_eq_some_iff.1 hi).1
    obtain ⟨a, l', b, c, d⟩ := hz i _ (List.getElem?_eq_getElem hil)
    rw [hi] at b; cases b
    exact ⟨i, _, List.getElem?_eq_getElem hil, hi, c, a, d⟩
  have dat : ∀ l ∈ s'.f.last_log.Zones, ∀ dl ∈ l.Data, dl.size < 2147483648 ∧ dl.file_pt.isSome = true := by
    intro l hm dl hdl
    obtain ⟨i, z, k1, k2, k3, -⟩ := key l hm
    obtain ⟨j, hj⟩ := List.mem_iff_getElem?.1 hdl
    have hjl : j < z.Data.length := by rw [← k3]; exact (List.getElem?_eq_some_iff.1 hj).1
    obtain ⟨l', dl', e1, -, e2, e3, -, e4, -⟩ := hd i z j _ k1 (List.getElem?_eq_getElem hjl)
    rw [k2] at e1; cases e1
    rw [hj] at e2; cases e2
    refine ⟨?_, by rw [e3]; rfl⟩
    rw [e4]
    exact hs z (List.mem_of_getElem? k1) _ (List.getElem_mem hjl)
  refine ⟨?_, fun l hm d hdm => (dat l hm d hdm).1, fun l hm d hdm => (dat l hm d hdm).2, ?_⟩
  · intro l hm
    obtain ⟨i, z, -, -, k3, k4, -⟩ := key l hm
    rw [k3, k4, hv]
  · intro l hm
    obtain ⟨i, z, k1, -, -, -, k5⟩ := key l hm
    have f := h.zones z (List.mem_of_getElem? k1)
    rw [k5]
    exact ⟨count_int f (by decide), count_int f (by decide), count_int f (by decide)⟩

/-- C39: Component `m` of an array (`x₁`, of any number type, dimension and virtual points) lies in memory at the
pointer of variable `j` of zone `i`, and the zone is set up to write its interior points.  If `write_plt` returns,
then `read_plt`, given the directory of the file, the log, the zone and the name of the variable, reads component
`n` of any array `x₂` with at least as many interior points in each dimension and returns; afterwards every point of that
component with the indices of an interior point of the source reads as the converted value of the source, every other element of every array reads as before, no array
changes its sizes, and all buffers have been given back. -/
theorem C39 {E : Env} {echo : Bool} {s s' : FSt} {data : Nat → Nat → Str} (h : Ready s data)
    (r : TecFile.write_plt E echo s = .ok () s') (hs : ∀ z ∈ s.f.Zones, ∀ d ∈ z.Data, d.size < 2147483648)
    {i j : Nat} {z : Zone} {d : TecData} (hi : s.f.Zones[i]? = some z) (hj : z.Data[j]? = some d)
    {name : Str} (hv : s.f.Variables.idxOf? name = some j) (hd : d.size = d.type.bytes)
    {mem₁ : Nat → Nat → Bool} {chk₁ : Bool} {w₁ : World V} {aw₁ : AWorld V} (R₁ : Reach mem₁ chk₁ w₁ aw₁)
    {x₁ : Nat} {k₁ : Kind} {es₁ : List Ext} {val₁ : Nat → List Int → Option V} (hx₁ : aw₁.arr x₁ = some (k₁, .ready es₁ val₁)) {m : Nat}
    (zone : ZoneFor (mkShape es₁ k₁.locs) z) {enc : V → Str} (img : ImageOf (mkShape es₁ k₁.locs) d.size enc (val₁ m) (data i j))
    {C : Num V'} {conv : V → V'} (cd : Codec d.type enc C conv)
    {mem₂ : Nat → Nat → Bool} {chk₂ : Bool} {w₂ : World V'} {aw₂ : AWorld V'} (R₂ : Reach mem₂ chk₂ w₂ aw₂)
    {x₂ : Nat} {k₂ : Kind} {es₂ : List Ext} {val₂ : Nat → List Int → Option V'} (hx₂ : aw₂.arr x₂ = some (k₂, .ready es₂ val₂))
    {n : Nat} (hn : n < k₂.N) (same : List.Forall₂ (· ≤ ·) (es₁.map (·.i)) (es₂.map (·.i))) {b : Heap Byte} (fr : Fresh b)
    (room : b.mem b.next (prod (es₁.map fun e => (e.i : Int)) * d.size) = true) (c : Bool) :
    ∃ w' b', World.read_plt c C ⟨s'.fs, s.f.FilePath, s'.f.last_log, i, name⟩ x₂ n (w₂, b) = .ok () (w', b') ∧ b'.blk = b.blk ∧
      (∀ ys gs, Valid k₂ es₂ n ys gs → InBlock (es₁.map fun e => (e.i : Int)) (point ys gs) → ∀ ys₁ gs₁, Valid k₁ es₁ m ys₁ gs₁ →
        point ys₁ gs₁ = point ys gs → ∀ c', ∃ u, exec c' (.read x₁ m ys₁ gs₁) w₁ = .ok (.val (some u)) w₁ ∧
          exec c' (.read x₂ n ys gs) w' = .ok (.val (some (conv u))) w') ∧
      (∀ y k' es' val', aw₂.arr y = some (k', .ready es' val') → ∀ q ys gs, Valid k' es' q ys gs →
        ¬ (y = x₂ ∧ q = n ∧ InBlock (es₁.map fun e => (e.i : Int)) (point ys gs)) →
        ∀ c', ∃ b, exec c' (.read y q ys gs) w₂ = .ok (.val b) w₂ ∧ exec c' (.read y q ys gs) w' = .ok (.val b) w') ∧
      (∀ y k' a', aw₂.arr y = some (k', a') → ∀ c', ∃ l,
        exec c' (.size y) w₂ = .ok (.sizes l) w₂ ∧ exec c' (.size y) w' = .ok (.sizes l) w') := by
  have ok := written_logOk h r hs
  obtain ⟨-, hn1, -, hvs, -, hz⟩ := C38_log h r
  obtain ⟨-, l, hl, -, hrm⟩ := hz i z hi
  obtain ⟨bytes, pt, hf, hdat, -⟩ := C38 h r
  obtain ⟨l', dl, e1, -, e2, e3, e4, e5, -, e6, e7⟩ := hdat i z j d hi hj
  rw [hl] at e1; cases e1
  have fit := h.zones z (List.mem_of_getElem? hi)
  obtain ⟨L₁, Q₁⟩ := R₁.rel
  obtain ⟨o₁, -, hk₁, -, rp₁⟩ := Q₁.arr_some hx₁
  have len₁ : es₁.length = k₁.locs.length := rp₁.len
  have hlen : es₂.length = es₁.length := by have := same.length_eq; simpa using this.symm
  have hsz : fileSizes es₂.length l = es₁.map fun e => (e.i : Int) := by
    have := zoneFor_sizes zone hrm
    rw [mkShape_ins len₁, mkShape_len len₁] at this
    rw [hlen, len₁, this]
  have hw := zoneFor_within zone fit
  rw [mkShape_ins len₁] at hw
  replace hw := within_le hw same
  have hpr := zoneFor_prod zone
  rw [mkShape_ins len₁] at hpr
  have hcnt : (l.Real_Max.x * l.Real_Max.y * l.Real_Max.z).toNat = prod (es₁.map fun e => (e.i : Int)) := by rw [hrm]; exact hpr
  rw [hcnt, e5] at e6 e7
  have hname : pltName ⟨s'.fs, s.f.FilePath, s'.f.last_log, i, name⟩ = s.f.path := by
    unfold pltName TecFile.path; rw [hn1]
  have nums : ∀ ys, InBlock (es₁.map fun e => (e.i : Int)) ys → ∃ u, val₁ m ys = some u ∧
      fileVal C dl.type (bytes.drop (pt i j)) (rowOf (es₁.map fun e => (e.i : Int)) ys) = some (conv u) := by
    intro ys hy
    have hy' := hy
    rw [← mkShape_ins len₁] at hy'
    obtain ⟨u, u1, u2⟩ := img ys hy'
    refine ⟨u, u1, ?_⟩
    have it := selected_item zone fit (h.vars i z j d hi hj).2.1 hy'
    rw [mkShape_ins len₁, u2] at it
    have := take_item e6 (rowOf_lt hy)
    rw [Zone.selectedOf, it, hd] at this
    rw [e4, fileVal_bytes cd.known (cd.len u) this, cd.dec]
  have hnone : readErr c k₂.N (es₂.map fun e => (e.i : Int)) ⟨s'.fs, s.f.FilePath, s'.f.last_log, i, name⟩
      (fun n => b.mem b.next n) n = none := by
    unfold readErr
    rw [if_neg (by omega)]
    have hsz' : fileSizes es₁.length l = es₁.map fun e => (e.i : Int) := by rw [← hlen]; exact hsz
    simp only [hl, List.length_map, hlen, hsz', hvs, hv, e2, e3, e4, e5, hname, hf]
    rw [if_neg (fun h => h hw), if_neg (by omega), if_neg (by rw [room]; decide), if_neg (by
      rw [List.length_drop, Int.toNat_natCast]; omega), if_pos cd.known]
  obtain ⟨w', b', q1, q2, q3, q4, q5⟩ := C39_read R₂ c C (A := ⟨s'.fs, s.f.FilePath, s'.f.last_log, i, name⟩) ok hx₂ hn fr hnone
    hl (by rw [hvs]; exact hv) e2 (by rw [hname]; exact hf) e3 (by rw [e5, e4]; exact hd) (by
      intro a ha
      rw [hsz] at ha
      obtain ⟨ys, y1, rfl⟩ := rowOf_surj ha
      obtain ⟨u, -, u2⟩ := nums ys y1
      rw [u2]; rfl)
  rw [hsz] at q3 q4
  refine ⟨w', b', q1, q2, ?_, q4, q5⟩
  intro ys gs hv2 hb ys₁ gs₁ hv1 hpt c'
  obtain ⟨u, u1, u2⟩ := nums _ hb
  refine ⟨u, ?_, ?_⟩
  · rw [Q₁.read c' hx₁ hv1, hpt, u1]
  · rw [q3 ys gs hv2 hb c', u2]

/-! ## An example -/

/-- an array of bytes: 2 x 3 interior points, a virtual point before the first row and behind every row, the second
dimension half-located; the interior points of component 1 are set -/
def sourceOps : List (Op UInt8) :=
  [.makeSized 0 ⟨2, [.center, .half]⟩ (fun _ => .null) [⟨1, 2, 0⟩, ⟨0, 3, 1⟩],
   .write 0 1 [0, 0] [.C, .N] 10, .write 0 1 [0, 1] [.C, .N] 11, .write 0 1 [0, 2] [.C, .N] 12,
   .write 0 1 [1, 0] [.C, .N] 20, .write 0 1 [1, 1] [.C, .N] 21, .write 0 1 [1, 2] [.C, .N] 22]

/-- its component 1 in memory, a byte stored in four bytes -/
def sourceBytes : Str :=
  ([7, 7, 7, 7, 7, 10, 11, 12, 7, 7, 20, 21, 22, 7, 7] : List UInt8).flatMap fun u => [u, 0, 0, 0]

def tripZone : Zone := { Zone.new (lit "zone") 0 with
  Max := ⟨5, 3, 1⟩, Skip := ⟨1, 1, 1⟩, Begin := ⟨0, 1, 0⟩, End := ⟨2, 0, 0⟩
  Data := [{ type := .float, size := 4, DataP := .at 0 0 }] }

def tripHeap : Heap Byte := ⟨fun b => if b = 0 then some (.vals 60 fun k => sourceBytes[k]?) else none, 1, fun _ _ => true⟩

def tripState : FSt := ⟨tripHeap, fun _ => none, [], false, [],
  { TecFile.new (lit "name") (lit "dir") (lit "title") with Variables := [lit "v"], Zones := [tripZone] }⟩

/-- an array of integers with the same interior and other virtual points -/
def targetOps : List (Op Int) :=
  [.makeSized 0 ⟨1, [.half, .center]⟩ (fun _ => .null) [⟨0, 2, 1⟩, ⟨2, 3, 0⟩], .write 0 0 [0, -1] [.N, .C] 77]

theorem tripReady : Ready tripState (fun _ _ => sourceBytes) := by
  have fit : tripZone.Fits := by
    refine ⟨?_, ?_, by decide, ?_⟩
    · intro i hi
      match i, hi with
      | 0, _ => constructor <;> decide
      | 1, _ => constructor <;> decide
      | 2, _ => constructor <;> decide
    · intro i hi
      match i, hi with
      | 0, _ => show _ < _; decide
      | 1, _ => show _ < _; decide
      | 2, _ => show _ < _; decide
    · intro i hi
      match i, hi with
      | 0, _ => decide
      | 1, _ => decide
      | 2, _ => decide
  refine ⟨?_, ?_, ?_⟩
  · intro z hz
    have : z = tripZone := by simpa [tripState] using hz
    subst this; exact fit
  · intro c hc
    have h : 1 ≤ c := hc
    show (if c = 0 then _ else _) = _
    rw [if_neg (by omega)]
  · intro i z j d hi hj
    have : z = tripZone := by simpa [tripState] using List.mem_of_getElem? hi
    subst this
    have : d = { type := .float, size := 4, DataP := .at 0 0 } := by simpa [tripZone] using List.mem_of_getElem? hj
    subst this
    exact ⟨by decide, by decide, 0, 0, 60, _, rfl, rfl, by decide, by decide +kernel⟩

/-- bytes as numbers of four bytes -/
theorem tripCodec : Codec .float (fun u : UInt8 => [u, 0, 0, 0]) bitsNum (fun u => (u.toNat : Int)) where
  known := .inl rfl
  len := fun _ => rfl
  dec := by
    intro u
    simp [fileVal, elem, leVal, bitsNum]

/-- the points of the target after writing the source and reading it again -/
def tripRun : Option (List (List (Option Int))) :=
  match TecFile.write_plt demoEnv true tripState, run true targetOps (World.init fun _ _ => true) with
  | .ok _ s', some (_, w) =>
    match World.read_plt true bitsNum ⟨s'.fs, lit "dir", s'.f.last_log, 0, lit "v"⟩ 0 0 (w, readHeap) with
    | .ok _ (w', _) => some <| [0, 1, 2].map fun i => [-2, -1, 0, 1, 2].map fun j =>
        match exec true (.read 0 0 [i, j] [.N, .C]) w' with
        | .ok (.val b) _ => b
        | _ => some 99
    | _ => none
  | _, _ => none

/-- the hypotheses of C39 hold of these arrays and this file, and what is read -/
example : Ready tripState (fun _ _ => sourceBytes) ∧
    (∃ s', TecFile.write_plt demoEnv true tripState = .ok () s') ∧
    (∃ (w : World UInt8) (aw : AWorld UInt8) (val : _), Reach (fun _ _ => true) true w aw ∧
      aw.arr 0 = some (⟨2, [.center, .half]⟩, .ready [⟨1, 2, 0⟩, ⟨0, 3, 1⟩] val) ∧
      ImageOf (mkShape [⟨1, 2, 0⟩, ⟨0, 3, 1⟩] [.center, .half]) 4 (fun u : UInt8 => [u, 0, 0, 0]) (val 1) sourceBytes) ∧
    ZoneFor (mkShape [⟨1, 2, 0⟩, ⟨0, 3, 1⟩] [.center, .half]) tripZone ∧
    Codec .float (fun u : UInt8 => [u, 0, 0, 0]) bitsNum (fun u => (u.toNat : Int)) ∧
    (∃ (w : World Int) (aw : AWorld Int) (val : _), Reach (fun _ _ => true) true w aw ∧
      aw.arr 0 = some (⟨1, [.half, .center]⟩, .ready [⟨0, 2, 1⟩, ⟨2, 3, 0⟩] val)) ∧
    tripRun = some [[none, some 77, some 10, some 11, some 12], [none, none, some 20, some 21, some 22], [none, none, none, none, none]] := by
  refine ⟨tripReady, ?_, ?_, ⟨rfl, rfl, rfl⟩, tripCodec, ?_, by decide +kernel⟩
  · generalize hr : TecFile.write_plt demoEnv true tripState = r
    have : (Res.state r).isSome := by rw [← hr]; decide +kernel
    cases r <;> simp_all [Res.state]
  · obtain ⟨evs, aw, val, h, h0, h1⟩ : ∃ evs aw val, arun (fun _ _ => true) true sourceOps AWorld.init = some (evs, aw) ∧
        aw.arr 0 = some (⟨2, [.center, .half]⟩, .ready [⟨1, 2, 0⟩, ⟨0, 3, 1⟩] val) ∧
        ∀ i ∈ [0, 1], ∀ j ∈ [0, 1, 2], val 1 [i, j] = some (UInt8.ofNat (10 * (i + 1) + j).toNat) := ⟨_, _, _, rfl, rfl, by decide +kernel⟩
    obtain ⟨w, R⟩ := reach_of_arun h
    refine ⟨w, aw, val, R, h0, ?_⟩
    intro ys hy
    match ys, hy with
    | [i, j], hy =>
      obtain ⟨a0, a1, b0, b1, -⟩ := hy
      have hi : i ∈ [0, 1] := by simp at a1 ⊢; omega
      have hj : j ∈ [0, 1, 2] := by simp at b1 ⊢; omega
      refine ⟨_, h1 i hi j hj, ?_⟩
      have all : ∀ i ∈ [(0 : Int), 1], ∀ j ∈ [(0 : Int), 1, 2],
          item 4 sourceBytes (offset (mkShape [⟨1, 2, 0⟩, ⟨0, 3, 1⟩] [.center, .half]) [i, j]) =
            [UInt8.ofNat (10 * (i + 1) + j).toNat, 0, 0, 0] := by decide +kernel
      exact all i hi j hj
  · obtain ⟨evs, aw, val, h, h0⟩ : ∃ evs aw val, arun (fun _ _ => true) true targetOps AWorld.init = some (evs, aw) ∧
        aw.arr 0 = some (⟨1, [.half, .center]⟩, .ready [⟨0, 2, 1⟩, ⟨2, 3, 0⟩] val) := ⟨_, _, _, rfl, rfl⟩
    obtain ⟨w, R⟩ := reach_of_arun h
    exact ⟨w, aw, val, R, h0⟩

end Verif.Props
