import Verif.Props.RoundTrip
import Verif.Proof.Export4
import Verif.Model.SaveLoad
/-!
# Variables written and read back, one after the other
-/
set_option linter.unusedSimpArgs false
namespace Verif
open Spec Tec Props
variable {V V' : Type}

/-- the points of a block -/
theorem mem_blockPts {ns : List Nat} {p : List Int} : p ∈ blockPts ns ↔ InBlock (ns.map fun (n : Nat) => (n : Int)) p := by
  induction ns generalizing p with
  | nil => cases p <;> simp [blockPts, InBlock]
  | cons n ns ih =>
    simp only [blockPts, List.mem_flatMap, List.mem_range, List.mem_map, List.map_cons]
    constructor
    · rintro ⟨i, hi, q, hq, rfl⟩
      exact ⟨by omega, by omega, ih.1 hq⟩
    · intro h
      match p, h with
      | y :: ys, ⟨h1, h2, h3⟩ =>
        exact ⟨y.toNat, by omega, ys, ih.2 h3, by rw [Int.toNat_of_nonneg h1]⟩

/-- the values after a component has been loaded -/
noncomputable def loadVal (n : Nat) (ins : List Int) (G : List Int → V') (val : Nat → List Int → Option V') : Nat → List Int → Option V' := by
  classical exact fun m ys => if m = n ∧ InBlock ins ys then some (G ys) else val m ys

/-- a component that does not exist, not tested -/
theorem Rel.read_ub {mem : Nat → Nat → Bool} {w : World V} {aw : AWorld V} {L : List Nat} (R : Rel mem w aw L) (C : Num V) {A : ReadArgs} (ok : LogOk A.log) {x : Nat} {k : Kind}
    {es : List Ext} {val : Nat → List Int → Option V}
    (hx : aw.arr x = some (k, .ready es val)) {nn : Nat} (hn : k.N ≤ nn) {b : Heap Byte} (fr : Fresh b)
    (hok : readErr false k.N (interior k (.ready es val)) A (fun n => b.mem b.next n) nn = none)
    {z : ZoneLog} {v : Nat} {d : DataLog} {c : Str} {pt : Nat} (hz : A.log.Zones[A.zone]? = some z)
    (hv : A.log.Variables.idxOf? A.name = some v) (hd : z.Data[v]? = some d) (hc : A.fs (cstr (pltName A)) = some c)
    (hp : d.file_pt = some (pt : Int)) (hs : d.size = d.type.bytes)
    (conv : ∀ i < prod (fileSizes es.length z), (fileVal C d.type (c.drop pt) i).isSome) :
    World.read_plt false C A x nn (w, b) = .ub .oob := by
  obtain ⟨o, hb, h0, r, Q⟩ := R.read_run false C ok hx nn fr
  rw [hok] at Q
  obtain ⟨z', v', d', c', pt', e1, hw, fd, run⟩ := Q
  have hint : interior k (.ready es val) = es.map fun e => (e.i : Int) := by
    unfold interior sizesOf; rw [List.map_map]; rfl
  rw [hint, List.length_map] at hw fd run
  rw [hz] at e1; cases e1
  have := fd.name; rw [hv] at this; cases this
  have := fd.data; rw [hd] at this; cases this
  have := fd.file; rw [hc] at this; cases this
  have := fd.at_; rw [hp] at this; cases this
  have g0 : InGrid (fileSizes es.length z) ((fileSizes es.length z).map fun _ => 0) := by
    have : ∀ {rs is : List Int}, Within rs is → InGrid rs (rs.map fun _ => 0) := by
      intro rs
      induction rs with
      | nil => intro is _; trivial
      | cons r rs ih =>
        intro is h
        match is, h with
        | i :: is, ⟨h1, h2, h3⟩ => exact ⟨by show 0 < r.toNat; omega, ih h3⟩
    exact this hw
  obtain ⟨xs, gs, hg⟩ : ∃ xs gs, grid (fileSizes es.length z) = xs :: gs := by
    cases e : grid (fileSizes es.length z) with
    | nil => have := mem_grid.2 g0; rw [e] at this; cases this
    | cons a l => exact ⟨a, l, rfl⟩
  have hin : InGrid (fileSizes es.length z) xs := mem_grid.1 (by rw [hg]; exact List.mem_cons_self)
  obtain ⟨u, hu⟩ := Option.isSome_iff_exists.1 (conv _ (rowIdx_lt hin))
  have hel : ∀ h : Heap V, o.elem k nn (xs.map Int.ofNat) h = .ub .oob := by
    intro h
    have hne : ¬ nn < k.N := by omega
    generalize xs.map Int.ofNat = ys
    unfold Obj.elem
    split
    · unfold D1.PD.elem D1.PD.pt0At
      rw [if_neg hne]
      exact M.bind_ub rfl
    · unfold D2.PD.elem D2.PD.pt0At
      rw [if_neg hne]
      exact M.bind_ub rfl
    · unfold D3.PD.elem D3.PD.pt0At
      rw [if_neg hne]
      exact M.bind_ub rfl
    · rfl
  have : o.read_plt false k C A nn ⟨w.h, b⟩ = .ub .oob := by
    rw [run, hg, runAll_cons]
    refine M.bind_ub (M.bind_ub ?_)
    unfold Obj.readAt
    rw [M.bind_ok (tempVal_ok fd.type hs fd.len (rowIdx_lt hin) hu)]
    refine M.bind_ub ?_
    unfold RSt.arr
    simp only [hel]
  unfold World.read_plt
  simp only [hb, this]

/-- what `read_plt` finds in the file -/
theorem read_seen {E : Env} {echo : Bool} {s s' : FSt} {data : Nat → Nat → Str} (h : Ready s data)
    (r : TecFile.write_plt E echo s = .ok () s')
    {i j : Nat} {z : Zone} {d : TecData} (hi : s.f.Zones[i]? = some z) (hj : z.Data[j]? = some d)
    {name : Str} (hv : s.f.Variables.idxOf? name = some j) (hd : d.size = d.type.bytes)
    {es₁ : List Ext} {locs₁ : List Loc} (len₁ : es₁.length = locs₁.length)
    (zone : ZoneFor (mkShape es₁ locs₁) z) {enc : V → Str} {G : List Int → V}
    (img : ∀ ys, InBlock (es₁.map fun e => (e.i : Int)) ys → item d.size (data i j) (offset (mkShape es₁ locs₁) ys) = enc (G ys))
    {C : Num V'} {conv : V → V'} (cd : Codec d.type enc C conv)
    {k₂ : Kind} {es₂ : List Ext} {val₂ : Nat → List Int → Option V'}
    (same : List.Forall₂ (· ≤ ·) (es₁.map (·.i)) (es₂.map (·.i))) {b : Heap Byte}
    (room : b.mem b.next (prod (es₁.map fun e => (e.i : Int)) * d.size) = true)
    {fs : Str → Option Str} (hfs : fs (cstr s.f.path) = s'.fs (cstr s.f.path)) {c : Bool} {n : Nat} (hn : ¬ (c = true ∧ k₂.N ≤ n)) :
    ∃ l dl bytes pt, readErr c k₂.N (interior k₂ (.ready es₂ val₂)) ⟨fs, s.f.FilePath, s'.f.last_log, i, name⟩ (fun n => b.mem b.next n) n = none ∧
      s'.f.last_log.Zones[i]? = some l ∧ s'.f.last_log.Variables.idxOf? name = some j ∧ l.Data[j]? = some dl ∧
      fs (cstr (pltName ⟨fs, s.f.FilePath, s'.f.last_log, i, name⟩)) = some bytes ∧ dl.file_pt = some ((pt : Nat) : Int) ∧ dl.size = dl.type.bytes ∧
      fileSizes es₂.length l = (es₁.map fun e => (e.i : Int)) ∧
      ∀ ys, InBlock (es₁.map fun e => (e.i : Int)) ys →
        fileVal C dl.type (bytes.drop pt) (rowOf (es₁.map fun e => (e.i : Int)) ys) = some (conv (G ys)) := by
  obtain ⟨-, hn1, -, hvs, -, hz⟩ := C38_log h r
  obtain ⟨-, l, hl, -, hrm⟩ := hz i z hi
  obtain ⟨bytes, pt, hf, hdat, -⟩ := C38 h r
  rw [← hfs] at hf
  obtain ⟨l', dl, e1, -, e2, e3, e4, e5, -, e6, e7⟩ := hdat i z j d hi hj
  rw [hl] at e1; cases e1
  have fit := h.zones z (List.mem_of_getElem? hi)
  have hlen : es₂.length = es₁.length := by have := same.length_eq; simpa using this.symm
  have hsz : fileSizes es₂.length l = es₁.map fun e => (e.i : Int) := by
    have := zoneFor_sizes zone hrm
    rw [mkShape_ins len₁, mkShape_len len₁] at this
    rw [hlen, len₁, this]
  have hw := zoneFor_within zone fit
  rw [mkShape_ins len₁] at hw
  replace hw := within_le hw same
  have hpr := zoneFor_prod zone
  rw [mkShape_ins len₁] at hpr
  have hcnt : (l.Real_Max.x * l.Real_Max.y * l.Real_Max.z).toNat = prod (es₁.map fun e => (e.i : Int)) := by rw [hrm]; exact hpr
  rw [hcnt, e5] at e6 e7
  have hname : pltName ⟨fs, s.f.FilePath, s'.f.last_log, i, name⟩ = s.f.path := by
    unfold pltName TecFile.path; rw [hn1]
  have nums : ∀ ys, InBlock (es₁.map fun e => (e.i : Int)) ys →
      fileVal C dl.type (bytes.drop (pt i j)) (rowOf (es₁.map fun e => (e.i : Int)) ys) = some (conv (G ys)) := by
    intro ys hy
    have hy' := hy
    rw [← mkShape_ins len₁] at hy'
    have it := selected_item zone fit (h.vars i z j d hi hj).2.1 hy'
    rw [mkShape_ins len₁, img ys hy] at it
    have := take_item e6 (rowOf_lt hy)
    rw [Zone.selectedOf, it, hd] at this
    rw [e4, fileVal_bytes cd.known (cd.len _) this, cd.dec]
  have hint : interior k₂ (.ready es₂ val₂) = es₂.map fun e => (e.i : Int) := by
    unfold interior sizesOf; rw [List.map_map]; rfl
  have hnone : readErr c k₂.N (interior k₂ (.ready es₂ val₂)) ⟨fs, s.f.FilePath, s'.f.last_log, i, name⟩
      (fun n => b.mem b.next n) n = none := by
    rw [hint]
    unfold readErr
    rw [if_neg hn]
    have hsz' : fileSizes es₁.length l = es₁.map fun e => (e.i : Int) := by rw [← hlen]; exact hsz
    simp only [hl, List.length_map, hlen, hsz', hvs, hv, e2, e3, e4, e5, hname, hf]
    rw [if_neg (fun h => h hw), if_neg (by omega), if_neg (by rw [room]; decide), if_neg (by
      rw [List.length_drop, Int.toNat_natCast]; omega), if_pos cd.known]
  exact ⟨l, dl, bytes, pt i j, hnone, hl, by rw [hvs]; exact hv, e2, by rw [hname]; exact hf, e3, by rw [e5, e4]; exact hd, hsz, nums⟩

/-- reading a written variable back -/
theorem read_back {E : Env} {echo : Bool} {s s' : FSt} {data : Nat → Nat → Str} (h : Ready s data)
    (r : TecFile.write_plt E echo s = .ok () s') (hs : ∀ z ∈ s.f.Zones, ∀ d ∈ z.Data, d.size < 2147483648)
    {i j : Nat} {z : Zone} {d : TecData} (hi : s.f.Zones[i]? = some z) (hj : z.Data[j]? = some d)
    {name : Str} (hv : s.f.Variables.idxOf? name = some j) (hd : d.size = d.type.bytes)
    {es₁ : List Ext} {locs₁ : List Loc} (len₁ : es₁.length = locs₁.length)
    (zone : ZoneFor (mkShape es₁ locs₁) z) {enc : V → Str} {G : List Int → V}
    (img : ∀ ys, InBlock (es₁.map fun e => (e.i : Int)) ys → item d.size (data i j) (offset (mkShape es₁ locs₁) ys) = enc (G ys))
    {C : Num V'} {conv : V → V'} (cd : Codec d.type enc C conv)
    {mem₂ : Nat → Nat → Bool} {w₂ : World V'} {aw₂ : AWorld V'} {L : List Nat} (R₂ : Rel mem₂ w₂ aw₂ L)
    {x₂ : Nat} {k₂ : Kind} {es₂ : List Ext} {val₂ : Nat → List Int → Option V'} (hx₂ : aw₂.arr x₂ = some (k₂, .ready es₂ val₂))
    {n : Nat} (hn : n < k₂.N) (same : List.Forall₂ (· ≤ ·) (es₁.map (·.i)) (es₂.map (·.i))) {b : Heap Byte} (fr : Fresh b)
    (room : b.mem b.next (prod (es₁.map fun e => (e.i : Int)) * d.size) = true)
    {fs : Str → Option Str} (hfs : fs (cstr s.f.path) = s'.fs (cstr s.f.path)) (c : Bool) :
    ∃ w' b', World.read_plt c C ⟨fs, s.f.FilePath, s'.f.last_log, i, name⟩ x₂ n (w₂, b) = .ok () (w', b') ∧ SameBlocks b b' ∧
      Rel mem₂ w' (aw₂.set x₂ (some (k₂, .ready es₂ (loadVal n (es₁.map fun e => (e.i : Int)) (fun ys => conv (G ys)) val₂)))) L := by
  have ok := written_logOk h r hs
  obtain ⟨l, dl, bytes, pt, hnone, hl, hv', e2, hf, e3, hsd, hsz, nums⟩ := read_seen h r hi hj hv hd len₁ zone img cd (k₂ := k₂) (val₂ := val₂) same room hfs
    (c := c) (n := n) (by omega)
  obtain ⟨w', b', q1, q2, q3⟩ := R₂.read_plt c C (A := ⟨fs, s.f.FilePath, s'.f.last_log, i, name⟩) ok hx₂ hn fr hnone
    hl hv' e2 hf e3 hsd (by
      intro a ha
      rw [hsz] at ha
      obtain ⟨ys, y1, rfl⟩ := rowOf_surj ha
      rw [nums ys y1]; rfl)
  refine ⟨w', b', q1, q2, ?_⟩
  have : readVal n (fileSizes es₂.length l) (fileVal C dl.type (bytes.drop pt)) val₂ =
      loadVal n (es₁.map fun e => (e.i : Int)) (fun ys => conv (G ys)) val₂ := by
    funext m ys
    unfold readVal loadVal
    rw [hsz]
    split
    · rename_i hc
      exact nums ys hc.2
    · rfl
  rw [← this]
  exact q3

/-- the same without a test of the component: undefined -/
theorem read_back_ub {E : Env} {echo : Bool} {s s' : FSt} {data : Nat → Nat → Str} (h : Ready s data)
    (r : TecFile.write_plt E echo s = .ok () s') (hs : ∀ z ∈ s.f.Zones, ∀ d ∈ z.Data, d.size < 2147483648)
    {i j : Nat} {z : Zone} {d : TecData} (hi : s.f.Zones[i]? = some z) (hj : z.Data[j]? = some d)
    {name : Str} (hv : s.f.Variables.idxOf? name = some j) (hd : d.size = d.type.bytes)
    {es₁ : List Ext} {locs₁ : List Loc} (len₁ : es₁.length = locs₁.length)
    (zone : ZoneFor (mkShape es₁ locs₁) z) {enc : V → Str} {G : List Int → V}
    (img : ∀ ys, InBlock (es₁.map fun e => (e.i : Int)) ys → item d.size (data i j) (offset (mkShape es₁ locs₁) ys) = enc (G ys))
    {C : Num V'} {conv : V → V'} (cd : Codec d.type enc C conv)
    {mem₂ : Nat → Nat → Bool} {w₂ : World V'} {aw₂ : AWorld V'} {L : List Nat} (R₂ : Rel mem₂ w₂ aw₂ L)
    {x₂ : Nat} {k₂ : Kind} {es₂ : List Ext} {val₂ : Nat → List Int → Option V'} (hx₂ : aw₂.arr x₂ = some (k₂, .ready es₂ val₂))
    {n : Nat} (hn : k₂.N ≤ n) (same : List.Forall₂ (· ≤ ·) (es₁.map (·.i)) (es₂.map (·.i))) {b : Heap Byte} (fr : Fresh b)
    (room : b.mem b.next (prod (es₁.map fun e => (e.i : Int)) * d.size) = true)
    {fs : Str → Option Str} (hfs : fs (cstr s.f.path) = s'.fs (cstr s.f.path)) :
    World.read_plt false C ⟨fs, s.f.FilePath, s'.f.last_log, i, name⟩ x₂ n (w₂, b) = .ub .oob := by
  have ok := written_logOk h r hs
  obtain ⟨l, dl, bytes, pt, hnone, hl, hv', e2, hf, e3, hsd, hsz, nums⟩ := read_seen h r hi hj hv hd len₁ zone img cd (k₂ := k₂) (val₂ := val₂) same room hfs
    (c := false) (n := n) (by simp)
  exact R₂.read_ub C (A := ⟨fs, s.f.FilePath, s'.f.last_log, i, name⟩) ok hx₂ hn fr hnone
    hl hv' e2 hf e3 hsd (by
      intro a ha
      rw [hsz] at ha
      obtain ⟨ys, y1, rfl⟩ := rowOf_surj ha
      rw [nums ys y1]; rfl)

/-- reading several written variables into several components -/
theorem read_vars {E : Env} {echo : Bool} {s s' : FSt} {data : Nat → Nat → Str} (h : Ready s data)
    (r : TecFile.write_plt E echo s = .ok () s') (hs : ∀ z ∈ s.f.Zones, ∀ d ∈ z.Data, d.size < 2147483648)
    {i : Nat} {z : Zone} (hi : s.f.Zones[i]? = some z) {t : TecType} (hd : ∀ d ∈ z.Data, d.type = t ∧ d.size = t.bytes)
    (hlen : s.f.Variables.length ≤ z.Data.length)
    {es₁ : List Ext} {locs₁ : List Loc} (len₁ : es₁.length = locs₁.length)
    (zone : ZoneFor (mkShape es₁ locs₁) z) {enc : V → Str} {F : Nat → List Int → V}
    (img : ∀ j < z.Data.length, ∀ ys ∈ blockPts (es₁.map (·.i)), item t.bytes (data i j) (offset (mkShape es₁ locs₁) ys) = enc (F j ys))
    {C : Num V'} {conv : V → V'} (cd : Codec t enc C conv)
    {mem₂ : Nat → Nat → Bool} {x₂ : Nat} {k₂ : Kind} {es₂ : List Ext} (same : List.Forall₂ (· ≤ ·) (es₁.map (·.i)) (es₂.map (·.i))) (c : Bool) {L : List Nat}
    {fs : Str → Option Str} (hfs : fs (cstr s.f.path) = s'.fs (cstr s.f.path))
    (rs : List (Str × Nat)) (hr : ∀ v ∈ rs, v.1 ∈ s.f.Variables ∧ v.2 < k₂.N) (nd : (rs.map Prod.snd).Nodup) :
    ∀ {w₂ : World V'} {aw₂ : AWorld V'} {val₂ : Nat → List Int → Option V'}, Rel mem₂ w₂ aw₂ L → aw₂.arr x₂ = some (k₂, .ready es₂ val₂) →
    ∀ {b : Heap Byte}, Fresh b → (∀ k, b.mem k (prod (es₁.map fun e => (e.i : Int)) * t.bytes) = true) →
    ∃ w' b' val', readVars c C fs s.f.FilePath s'.f.last_log i x₂ rs (w₂, b) = .ok () (w', b') ∧ SameBlocks b b' ∧
      Rel mem₂ w' (aw₂.set x₂ (some (k₂, .ready es₂ val'))) L ∧
      (∀ v ∈ rs, ∀ j, s.f.Variables.idxOf? v.1 = some j → ∀ p ∈ blockPts (es₁.map (·.i)), val' v.2 p = some (conv (F j p))) ∧
      ∀ m p, ¬ (m ∈ rs.map Prod.snd ∧ p ∈ blockPts (es₁.map (·.i))) → val' m p = val₂ m p := by
  have hblk : ∀ p, p ∈ blockPts (es₁.map (·.i)) ↔ InBlock (es₁.map fun e => (e.i : Int)) p := by
    intro p
    rw [mem_blockPts, List.map_map]; rfl
  induction rs with
  | nil =>
    intro w₂ aw₂ val₂ R hx b fr room
    refine ⟨w₂, b, val₂, rfl, ⟨rfl, rfl, Nat.le_refl _⟩, ?_, by simp, fun _ _ _ => rfl⟩
    have : aw₂.set x₂ (some (k₂, .ready es₂ val₂)) = aw₂ := by
      unfold AWorld.set
      congr
      funext y
      split
      · rename_i e; rw [e, hx]
      · rfl
    rw [this]; exact R
  | cons v rs ih =>
    intro w₂ aw₂ val₂ R hx b fr room
    obtain ⟨name, n⟩ := v
    obtain ⟨hm, hn⟩ := hr (name, n) List.mem_cons_self
    simp only at hm hn
    simp only [List.map_cons, List.nodup_cons] at nd
    obtain ⟨j, hj⟩ : ∃ j, s.f.Variables.idxOf? name = some j := by
      cases e : s.f.Variables.idxOf? name with
      | none => rw [List.idxOf?_eq_none_iff] at e; exact absurd hm e
      | some j => exact ⟨j, rfl⟩
    have hjl : j < z.Data.length := by
      have := List.of_findIdx?_eq_some hj
      have h2 : j < s.f.Variables.length := by
        by_contra hc
        rw [List.getElem?_eq_none (by omega)] at this
        simp at this
      omega
    obtain ⟨dt, dz⟩ := hd _ (List.getElem_mem hjl)
    obtain ⟨w1, b1, q1, q2, q3⟩ := read_back h r hs hi (List.getElem?_eq_getElem hjl) hj (by rw [dt, dz]) len₁ zone (G := F j) (enc := enc)
      (by intro ys hy; rw [dz]; exact img j hjl ys ((hblk ys).2 hy)) (by rw [dt]; exact cd) R hx hn same fr (by rw [dz]; exact room _) hfs c
    obtain ⟨sb1, sb2, sb3⟩ := q2
    obtain ⟨w', b', val', p1, p2, p3, p4, p5⟩ := ih (fun v hv => hr v (List.mem_cons_of_mem _ hv)) nd.2
      (val₂ := loadVal n (es₁.map fun e => (e.i : Int)) (fun ys => conv (F j ys)) val₂) q3 (by simp only [AWorld.set, if_pos])
      (b := b1) (fun c hc => by rw [sb1]; exact fr c (by omega)) (fun k => by rw [sb2]; exact room k)
    refine ⟨w', b', val', ?_, ⟨p2.1.trans sb1, p2.2.1.trans sb2, Nat.le_trans sb3 p2.2.2⟩, ?_, ?_, ?_⟩
    · unfold readVars
      rw [M.bind_ok q1]
      exact p1
    · have : (aw₂.set x₂ (some (k₂, .ready es₂ (loadVal n (es₁.map fun e => (e.i : Int)) (fun ys => conv (F j ys)) val₂)))).set x₂
          (some (k₂, .ready es₂ val')) = aw₂.set x₂ (some (k₂, .ready es₂ val')) := by
        unfold AWorld.set
        congr
        funext y
        simp only
        split <;> rfl
      rw [← this]; exact p3
    · intro v hv j' hj' p hp
      rcases List.mem_cons.1 hv with rfl | hv
      · simp only at hj' ⊢
        rw [hj] at hj'; cases hj'
        rw [p5 n p (fun h => nd.1 h.1)]
        unfold loadVal
        rw [if_pos ⟨rfl, (hblk p).1 hp⟩]
      · exact p4 v hv j' hj' p hp
    · intro m p hmp
      rw [p5 m p (fun h => hmp ⟨List.mem_cons_of_mem _ h.1, h.2⟩)]
      unfold loadVal
      rw [if_neg]
      rintro ⟨rfl, h2⟩
      exact hmp ⟨List.mem_cons_self, (hblk p).2 h2⟩

end Verif
