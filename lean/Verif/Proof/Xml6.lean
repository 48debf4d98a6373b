import Verif.Proof.Xml5
import Verif.Proof.TecText
/-!
# Reading the tree of a log: zones and files
-/
namespace Verif.Xml
open Tec Spec

theorem firstNamed_append (n : Str) (l m : List Node) : firstNamed n (l ++ m) = (firstNamed n l).or (firstNamed n m) := List.find?_append

theorem firstNamed_aux (m : AuxMap) {n : Str} (h : n ≠ lit "Auxiliary") : firstNamed n (auxNodes m) = none := by
  unfold auxNodes
  split
  · rfl
  · show (match (lit "Auxiliary" == n) with | true => _ | false => _) = _
    rw [show (lit "Auxiliary" == n) = false by simpa using fun c => h c.symm]
    rfl

theorem firstNamed_time (z : ZoneLog) (F : Fmt) {n : Str} (h : n ≠ lit "SolutionTime") :
    firstNamed n (if z.StrandId = -1 then [] else [field (lit "SolutionTime") (F.le z.SolutionTime)]) = none := by
  split
  · rfl
  · show (match (lit "SolutionTime" == n) with | true => _ | false => _) = _
    rw [show (lit "SolutionTime" == n) = false by simpa using fun c => h c.symm]
    rfl

theorem zone_child (F : Fmt) (z : ZoneLog) (n : String) (h1 : lit n ≠ lit "SolutionTime") (h2 : lit n ≠ lit "Auxiliary") (x : Node)
    (h : firstNamed (lit n) ([field (lit "ZoneName") z.ZoneName, field (lit "StrandId") (dec z.StrandId)]
      ++ [field (lit "Org_Dim") (dec z.Dim), field (lit "Real_Dim") (dec z.Real_Dim), triple "Org_Max" z.Max, triple "Skip" z.Skip,
          triple "Begin" z.Begin, triple "End" z.End, triple "Real_Max" z.Real_Max]
      ++ [.comment (lit "1=Float, 2=Double, 3=LongInt, 4=ShortInt, 5=Byte, 6=Bit"),
          .elem (lit "Datas") [] (z.Data.zipIdx.map fun d => dataNode F d.1 d.2)]) = some x) : (zoneNode F z).child n = .ok x := by
  unfold Node.child
  rw [← show deref (some x) = Out.ok x from rfl, ← h]
  congr 1
  unfold zoneNode
  show firstNamed (lit n) (_ ++ _ ++ _ ++ _ ++ _) = _
  simp only [firstNamed_append, firstNamed_aux _ h2, firstNamed_time _ _ h1, Option.or_none]

theorem zone_time {F : Fmt} {z : ZoneLog} (h : z.StrandId ≠ -1) : (zoneNode F z).child "SolutionTime" = .ok (field (lit "SolutionTime") (F.le z.SolutionTime)) := by
  unfold Node.child zoneNode
  rw [if_neg h]
  rfl

theorem zone_aux (F : Fmt) (z : ZoneLog) : firstNamed (lit "Auxiliary") (zoneNode F z).children = (auxNodes z.Auxiliary).head? := by
  unfold zoneNode
  show firstNamed (lit "Auxiliary") (_ ++ _ ++ _ ++ _ ++ _) = _
  simp only [firstNamed_append, firstNamed_time z F (n := lit "Auxiliary") (by decide)]
  unfold auxNodes
  split
  · rfl
  · rfl

theorem elems_fields (m : AuxMap) (n : Str) : (Node.elem n [] (m.map fun e => field e.1 e.2)).elems = m.map fun e => field e.1 e.2 := by
  refine List.filter_eq_self.2 ?_
  intro x hx
  obtain ⟨e, -, rfl⟩ := List.mem_map.1 hx
  rfl

theorem readAux_nodes {m : AuxMap} (h : m.Ordered) {root : Node} (hr : firstNamed (lit "Auxiliary") root.children = (auxNodes m).head?) :
    readAux root [] = if AuxSeen m then .ok m else .ub .null := by
  unfold readAux
  rw [hr]
  unfold auxNodes
  by_cases hm : m = []
  · subst hm
    rw [if_pos rfl, if_pos (by intro e he; cases he)]; rfl
  · rw [if_neg hm]
    show readAuxList (Node.elems _) [] = _
    rw [elems_fields, readAux_list (pre := []) h]
    rfl

theorem code_inI32 (t : TecType) : InI32 t.code := by cases t <;> decide

theorem ofCode_code (t : TecType) : TecType.ofCode t.code = .ok t := by cases t <;> rfl

theorem read_data {F : Fmt} {rd : Str → Option F64} {le f5 : F64 → F64} (hs : Scans F rd le f5) {d : DataLog} (h : DataNums d) (i : Nat) :
    DataLog.read_xml rd (dataNode F d i) = .ok (dataBack le d) := by
  obtain ⟨p, hp, hr⟩ := h.pt
  obtain ⟨mn, hmn⟩ := Option.isSome_iff_exists.1 h.min
  obtain ⟨mx, hmx⟩ := Option.isSome_iff_exists.1 h.max
  have a1 : (dataNode F d i).attr "type" = some (dec d.type.code) := rfl
  have a2 : (dataNode F d i).attr "size_i" = some (dec d.size) := rfl
  have a3 : (dataNode F d i).attr "file_pt" = some (dec (d.file_pt.getD 0)) := rfl
  have a4 : (dataNode F d i).attr "min" = some (F.le (d.min.getD 0)) := rfl
  have a5 : (dataNode F d i).attr "max" = some (F.le (d.max.getD 0)) := rfl
  have hsz := h.size
  unfold DataLog.read_xml Node.queryIntAttr Node.queryUnsignedAttr Node.queryDoubleAttr
  rw [a1, a2, a3, a4, a5]
  simp only
  rw [scanInt_dec (code_inI32 _), ok_bind, ok_bind]
  show (TecType.ofCode d.type.code >>= _) = _
  rw [ofCode_code, ok_bind, scanUnsigned_dec (by omega), ok_bind, ok_bind]
  show Out.ok _ = _
  rw [hp, hmn, hmx]
  simp only [Option.getD_some, strtol_dec hr, hs.le]
  unfold dataBack
  simp only [hp, hmn, hmx]
  rfl

theorem readData_list {F : Fmt} {rd : Str → Option F64} {le f5 : F64 → F64} (hs : Scans F rd le f5) (l : List DataLog) :
    ∀ (i : Nat) (pre : List DataLog), (∀ d ∈ l, DataNums d) → readData rd ((l.zipIdx i).map fun d => dataNode F d.1 d.2) pre = .ok (pre ++ l.map (dataBack le)) := by
  induction l with
  | nil => intro i pre _; show Out.ok pre = _; simp
  | cons d l ih =>
    intro i pre h
    rw [List.zipIdx_cons, List.map_cons, readData, read_data hs (h d (by simp)), ok_bind, ih _ _ fun x hx => h x (by simp [hx])]
    simp

theorem elems_data (F : Fmt) (z : ZoneLog) : (Node.elem (lit "Datas") [] (z.Data.zipIdx.map fun d => dataNode F d.1 d.2)).elems =
    z.Data.zipIdx.map fun d => dataNode F d.1 d.2 := by
  refine List.filter_eq_self.2 ?_
  intro x hx
  obtain ⟨e, -, rfl⟩ := List.mem_map.1 hx
  rfl

theorem read3_zone {F : Fmt} {z : ZoneLog} {n : String} {a : I3} (hc : (zoneNode F z).child n = .ok (triple n a)) (h : a.Fit) :
    read3 (zoneNode F z) n {} = .ok ⟨some a.x, some a.y, some a.z⟩ := by
  unfold read3
  rw [hc, ok_bind, read_triple h]

/-- a zone -/
theorem read_zone {F : Fmt} (hF : PrintsNumbers F) {rd : Str → Option F64} {le f5 : F64 → F64} (hs : Scans F rd le f5) {z : ZoneLog} (h : ZoneNums z) (j : Junk) :
    (ZoneRead.read_xml rd (zoneNode F z) {} >>= fun x => x.log j) =
      if Visible z.ZoneName ∧ AuxSeen z.Auxiliary then .ok (zoneBack le j z) else .ub .null := by
  unfold ZoneRead.read_xml
  rw [zone_child F z "ZoneName" (by decide) (by decide) _ rfl, ok_bind, getText_field]
  by_cases hv : Visible z.ZoneName
  swap
  · rw [if_neg hv, if_neg fun c => hv c.1]; rfl
  rw [if_pos hv]
  show ((toStr (some z.ZoneName) >>= _) >>= _) = _
  rw [show toStr (some z.ZoneName) = .ok z.ZoneName from rfl, ok_bind, zone_child F z "StrandId" (by decide) (by decide) _ rfl, ok_bind, queryInt_field h.strand, ok_bind,
    show known (some z.StrandId) = .ok z.StrandId from rfl, ok_bind]
  obtain ⟨tv, ht, hk⟩ : ∃ tv, readTime rd (zoneNode F z) z.StrandId none = .ok tv ∧
      timeLog j z.StrandId tv = .ok (if z.StrandId = -1 then j.time else le z.SolutionTime) := by
    unfold readTime timeLog
    by_cases hst : z.StrandId = -1
    · exact ⟨none, by rw [if_pos hst], by rw [if_pos hst, if_pos hst]; rfl⟩
    · exact ⟨some (le z.SolutionTime), by rw [if_neg hst, zone_time hst, ok_bind, queryDouble_field (hF _).1 (hs.le _)], by rw [if_neg hst, if_neg hst]; rfl⟩
  rw [ht, ok_bind, zone_child F z "Org_Dim" (by decide) (by decide) _ rfl, ok_bind, queryInt_field h.dim, ok_bind,
    zone_child F z "Real_Dim" (by decide) (by decide) _ rfl, ok_bind, queryInt_field h.real, ok_bind,
    read3_zone (zone_child F z "Org_Max" (by decide) (by decide) _ rfl) h.max, ok_bind,
    read3_zone (zone_child F z "Skip" (by decide) (by decide) _ rfl) h.skip, ok_bind,
    read3_zone (zone_child F z "Begin" (by decide) (by decide) _ rfl) h.head, ok_bind,
    read3_zone (zone_child F z "End" (by decide) (by decide) _ rfl) h.tail, ok_bind,
    read3_zone (zone_child F z "Real_Max" (by decide) (by decide) _ rfl) h.realMax, ok_bind, readAux_nodes h.aux (zone_aux F z)]
  by_cases ha : AuxSeen z.Auxiliary
  swap
  · rw [if_neg ha, if_neg fun c => ha c.2]; rfl
  rw [if_pos ha, if_pos ⟨hv, ha⟩, ok_bind, zone_child F z "Datas" (by decide) (by decide) _ rfl, ok_bind, elems_data, readData_list hs z.Data 0 [] h.data, ok_bind,
    ok_bind]
  unfold ZoneRead.log zoneBack
  simp only
  rw [show known (some z.StrandId) = .ok z.StrandId from rfl, ok_bind]
  rw [hk]
  rfl

theorem read_zones {F : Fmt} (hF : PrintsNumbers F) {rd : Str → Option F64} {le f5 : F64 → F64} (hs : Scans F rd le f5) (junk : Nat → Junk) (l : List ZoneLog) :
    ∀ i, (∀ z ∈ l, ZoneNums z) → readZones rd junk (l.map (zoneNode F)) i =
      if ∀ z ∈ l, Visible z.ZoneName ∧ AuxSeen z.Auxiliary then .ok ((l.zipIdx i).map fun z => zoneBack le (junk z.2) z.1) else .ub .null := by
  induction l with
  | nil => intro i _; rw [if_pos (by simp)]; rfl
  | cons z l ih =>
    intro i h
    have hz := read_zone hF hs (h z (by simp)) (junk i)
    rw [List.map_cons, readZones]
    have assoc : ∀ {α β γ : Type} (m : Out α) (f : α → Out β) (g : β → Out γ), (m >>= fun x => f x >>= g) = (m >>= f) >>= g := by
      intro α β γ m f g; cases m <;> rfl
    rw [assoc, hz, ih (i + 1) fun x hx => h x (by simp [hx])]
    by_cases hv : Visible z.ZoneName ∧ AuxSeen z.Auxiliary
    · rw [if_pos hv, ok_bind]
      by_cases hl : ∀ z ∈ l, Visible z.ZoneName ∧ AuxSeen z.Auxiliary
      · rw [if_pos hl, ok_bind, if_pos (by
          intro x hx
          rcases List.mem_cons.1 hx with rfl | hx
          · exact hv
          · exact hl x hx), List.zipIdx_cons, List.map_cons]
      · rw [if_neg hl, if_neg fun c => hl fun x hx => c x (by simp [hx])]; rfl
    · rw [if_neg hv, if_neg (show ¬ ∀ x ∈ z :: l, Visible x.ZoneName ∧ AuxSeen x.Auxiliary from fun c => hv (c z (by simp)))]; rfl

end Verif.Xml
