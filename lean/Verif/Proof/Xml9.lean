import Verif.Proof.Xml7
/-!
# What `read_xml` demands of the tree
-/
namespace Verif.Xml
open Tec Spec

/-- the outcome is not an exception -/
def NoErr {α : Type} (x : Out α) : Prop := ∀ e, x ≠ .err e

theorem NoErr.ok {α : Type} (a : α) : NoErr (.ok a : Out α) := fun _ h => by cases h
theorem NoErr.ub {α : Type} (u : UB) : NoErr (.ub u : Out α) := fun _ h => by cases h

theorem NoErr.bind {α β : Type} {x : Out α} {f : α → Out β} (hx : NoErr x) (hf : ∀ a, NoErr (f a)) : NoErr (x >>= f) := by
  cases x with
  | ok a => exact hf a
  | err e => exact absurd rfl (hx e)
  | ub u => exact .ub u

theorem NoErr.ite {α : Type} {c : Prop} [Decidable c] {x y : Out α} (hx : NoErr x) (hy : NoErr y) : NoErr (if c then x else y) := by
  split
  · exact hx
  · exact hy

theorem noErr_deref (x : Option Node) : NoErr (deref x) := by cases x <;> intro e h <;> cases h
theorem noErr_child (x : Node) (n : String) : NoErr (x.child n) := noErr_deref _
theorem noErr_toStr (x : Option Str) : NoErr (toStr x) := by cases x <;> intro e h <;> cases h
theorem noErr_known {α : Type} (x : Option α) : NoErr (known x) := by cases x <;> intro e h <;> cases h
theorem noErr_sprintf (n : Nat) (s : Str) : NoErr (sprintf n s) := by unfold sprintf; exact .ite (.ok _) (.ub _)
theorem noErr_scanInt (t : Str) : NoErr (scanInt t) := by
  unfold scanInt
  split
  · exact .ok _
  · exact .ite (.ok _) (.ub _)
theorem noErr_scanUnsigned (t : Str) : NoErr (scanUnsigned t) := by
  unfold scanUnsigned
  split
  · exact .ok _
  · exact .ite (.ok _) (.ub _)

theorem noErr_queryInt (x : Node) (v : Option Int) : NoErr (x.queryInt v) := by
  unfold Node.queryInt
  split
  · exact .ok _
  · exact (noErr_scanInt _).bind fun _ => .ok _
theorem noErr_queryIntAttr (x : Node) (n : String) (v : Option Int) : NoErr (x.queryIntAttr n v) := by
  unfold Node.queryIntAttr
  split
  · exact .ok _
  · exact (noErr_scanInt _).bind fun _ => .ok _
theorem noErr_queryUnsignedAttr (x : Node) (n : String) (v : Option Nat) : NoErr (x.queryUnsignedAttr n v) := by
  unfold Node.queryUnsignedAttr
  split
  · exact .ok _
  · exact (noErr_scanUnsigned _).bind fun _ => .ok _

theorem noErr_auxList (l : List Node) (m : AuxMap) : NoErr (readAuxList l m) := by
  induction l generalizing m with
  | nil => exact .ok _
  | cons e l ih => exact (noErr_toStr _).bind fun _ => ih _

theorem noErr_aux (root : Node) (m : AuxMap) : NoErr (readAux root m) := by
  unfold readAux
  split
  · exact .ok _
  · exact noErr_auxList _ _

theorem noErr_read3List (l : List Node) (i : Nat) (a : O3) : NoErr (read3List l i a) := by
  induction l generalizing i a with
  | nil => exact .ok _
  | cons e l ih =>
    unfold read3List
    refine .ite ((noErr_queryInt _ _).bind fun _ => ih _ _) (.ite ((noErr_queryInt _ _).bind fun _ => .ite (.ub _) (ih _ _)) (.ub _))

theorem noErr_read3 (root : Node) (n : String) (a : O3) : NoErr (read3 root n a) := (noErr_child _ _).bind fun _ => noErr_read3List _ _ _

theorem noErr_ofCode (c : Int) : NoErr (TecType.ofCode c) := by
  unfold TecType.ofCode
  exact .ite (.ok _) <| .ite (.ok _) <| .ite (.ok _) <| .ite (.ok _) <| .ite (.ok _) <| .ite (.ok _) (.ub _)

theorem noErr_data (rd : Str → Option F64) (e : Node) : NoErr (DataLog.read_xml rd e) :=
  (noErr_queryIntAttr _ _ _).bind fun _ => (noErr_known _).bind fun _ => (noErr_ofCode _).bind fun _ => (noErr_queryUnsignedAttr _ _ _).bind fun _ =>
    (noErr_known _).bind fun _ => (noErr_toStr _).bind fun _ => .ok _

theorem noErr_datas (rd : Str → Option F64) (l : List Node) (ds : List DataLog) : NoErr (readData rd l ds) := by
  induction l generalizing ds with
  | nil => exact .ok _
  | cons e l ih => exact (noErr_data _ _).bind fun _ => ih _

theorem noErr_time (rd : Str → Option F64) (root : Node) (s : Int) (o : Option F64) : NoErr (readTime rd root s o) := by
  unfold readTime
  exact .ite (.ok _) ((noErr_child _ _).bind fun _ => .ok _)

theorem noErr_zone (rd : Str → Option F64) (root : Node) (z : ZoneRead) : NoErr (ZoneRead.read_xml rd root z) :=
  (noErr_child _ _).bind fun _ => (noErr_toStr _).bind fun _ => (noErr_child _ _).bind fun _ => (noErr_queryInt _ _).bind fun _ =>
    (noErr_known _).bind fun _ => (noErr_time _ _ _ _).bind fun _ => (noErr_child _ _).bind fun _ => (noErr_queryInt _ _).bind fun _ =>
    (noErr_child _ _).bind fun _ => (noErr_queryInt _ _).bind fun _ => (noErr_read3 _ _ _).bind fun _ => (noErr_read3 _ _ _).bind fun _ =>
    (noErr_read3 _ _ _).bind fun _ => (noErr_read3 _ _ _).bind fun _ => (noErr_read3 _ _ _).bind fun _ => (noErr_aux _ _).bind fun _ =>
    (noErr_child _ _).bind fun _ => (noErr_datas _ _ _).bind fun _ => .ok _

theorem noErr_o3 (a : O3) : NoErr a.known := (noErr_known _).bind fun _ => (noErr_known _).bind fun _ => (noErr_known _).bind fun _ => .ok _

theorem noErr_log (j : Junk) (z : ZoneRead) : NoErr (z.log j) :=
  (noErr_known _).bind fun _ => NoErr.bind (by unfold timeLog; exact .ite (.ok _) (noErr_known _)) fun _ => (noErr_known _).bind fun _ =>
    (noErr_known _).bind fun _ => (noErr_o3 _).bind fun _ => (noErr_o3 _).bind fun _ => (noErr_o3 _).bind fun _ => (noErr_o3 _).bind fun _ =>
    (noErr_o3 _).bind fun _ => .ok _

theorem noErr_zones (rd : Str → Option F64) (junk : Nat → Junk) (l : List Node) (i : Nat) : NoErr (readZones rd junk l i) := by
  induction l generalizing i with
  | nil => exact .ok _
  | cons e l ih => exact (noErr_zone _ _ _).bind fun _ => (noErr_log _ _).bind fun _ => (ih _).bind fun _ => .ok _

theorem noErr_eachZone {g : ZoneLog → Out ZoneLog} (hg : ∀ z, NoErr (g z)) (l : List ZoneLog) : NoErr (eachZone g l) := by
  induction l with
  | nil => exact .ok _
  | cons a l ih => exact (hg a).bind fun _ => ih.bind fun _ => .ok _

theorem noErr_lines {α : Type} {g : Nat → α → Bool → Out Str} (hg : ∀ i a b, NoErr (g i a b)) (i : Nat) (l : List α) : NoErr (lines g i l) := by
  induction l generalizing i with
  | nil => unfold lines; exact .ok _
  | cons a l ih => unfold lines; exact (hg _ _ _).bind fun _ => (ih _).bind fun _ => .ok _

theorem noErr_optLine (c : Bool) {t : Out Str} (h : NoErr t) : NoErr (optLine c t) := by
  unfold optLine
  exact .ite (h.bind fun _ => .ok _) (.ok _)

theorem noErr_xmlAux (m : AuxMap) : NoErr (xmlAux m) := by
  unfold xmlAux
  exact .ite ((noErr_lines (fun _ _ _ => noErr_sprintf _ _) _ _).bind fun _ => .ok _) (.ok _)

theorem noErr_jsonAux (m : AuxMap) : NoErr (jsonAux m) := by
  unfold jsonAux
  exact .ite ((noErr_lines (fun _ _ _ => (noErr_sprintf _ _).bind fun _ => .ok _) _ _).bind fun _ => .ok _) (.ok _)

theorem noErr_zoneXml (F : Fmt) (z : ZoneLog) : NoErr (z.gen_xml F) :=
  (noErr_sprintf _ _).bind fun _ => (noErr_sprintf _ _).bind fun _ => (noErr_sprintf _ _).bind fun _ => (noErr_optLine _ (noErr_sprintf _ _)).bind fun _ =>
    (noErr_sprintf _ _).bind fun _ => (noErr_sprintf _ _).bind fun _ => (noErr_sprintf _ _).bind fun _ => (noErr_sprintf _ _).bind fun _ =>
    (noErr_sprintf _ _).bind fun _ => (noErr_sprintf _ _).bind fun _ => (noErr_sprintf _ _).bind fun _ => (noErr_xmlAux _).bind fun _ =>
    (noErr_lines (fun _ _ _ => (noErr_known _).bind fun _ => (noErr_known _).bind fun _ => (noErr_known _).bind fun _ => noErr_sprintf _ _) _ _).bind fun _ => .ok _

theorem noErr_zoneJson (F : Fmt) (z : ZoneLog) : NoErr (z.gen_json F) :=
  (noErr_sprintf _ _).bind fun _ => (noErr_sprintf _ _).bind fun _ => (noErr_optLine _ (noErr_sprintf _ _)).bind fun _ =>
    (noErr_sprintf _ _).bind fun _ => (noErr_sprintf _ _).bind fun _ => (noErr_sprintf _ _).bind fun _ => (noErr_sprintf _ _).bind fun _ =>
    (noErr_sprintf _ _).bind fun _ => (noErr_sprintf _ _).bind fun _ => (noErr_sprintf _ _).bind fun _ => (noErr_jsonAux _).bind fun _ =>
    (noErr_lines (fun _ _ _ => (noErr_known _).bind fun _ => (noErr_known _).bind fun _ => (noErr_known _).bind fun _ => (noErr_sprintf _ _).bind fun _ => .ok _) _ _).bind fun _ => .ok _

theorem noErr_fileJson (F : Fmt) (l : FileLog) : NoErr (l.gen_json F) :=
  (noErr_sprintf _ _).bind fun _ => (noErr_sprintf _ _).bind fun _ => (noErr_sprintf _ _).bind fun _ => (noErr_known _).bind fun _ =>
    (noErr_sprintf _ _).bind fun _ => (noErr_sprintf _ _).bind fun _ => (noErr_sprintf _ _).bind fun _ =>
    NoErr.bind ((noErr_lines (fun _ _ _ => (noErr_sprintf _ _).bind fun _ => .ok _) _ _).bind fun _ => .ok _) fun _ =>
    (noErr_jsonAux _).bind fun _ => (noErr_eachZone (noErr_zoneJson F) _).bind fun _ => .ok _

theorem noErr_fileXml (F : Fmt) (l : FileLog) : NoErr (l.gen_xml F) :=
  (noErr_sprintf _ _).bind fun _ => (noErr_sprintf _ _).bind fun _ => (noErr_sprintf _ _).bind fun _ => (noErr_sprintf _ _).bind fun _ =>
    (noErr_known _).bind fun _ => (noErr_sprintf _ _).bind fun _ => (noErr_sprintf _ _).bind fun _ => (noErr_sprintf _ _).bind fun _ =>
    (noErr_sprintf _ _).bind fun _ => NoErr.bind ((noErr_lines (fun _ _ _ => noErr_sprintf _ _) _ _).bind fun _ => .ok _) fun _ =>
    (noErr_xmlAux _).bind fun _ => (noErr_eachZone (noErr_zoneXml F) _).bind fun _ => .ok _

theorem noErr_file (F : Fmt) (rd : Str → Option F64) (junk : Nat → Junk) (root : Node) (l : FileLog) : NoErr (FileLog.read_xml F rd junk root l) :=
  (noErr_toStr _).bind fun _ => (noErr_child _ _).bind fun _ => (noErr_toStr _).bind fun _ => (noErr_child _ _).bind fun _ =>
    (noErr_toStr _).bind fun _ => (noErr_child _ _).bind fun _ => (noErr_child _ _).bind fun _ => (noErr_toStr _).bind fun _ =>
    (noErr_child _ _).bind fun _ => (noErr_queryInt _ _).bind fun _ => (noErr_known _).bind fun _ => (noErr_child _ _).bind fun _ =>
    (noErr_aux _ _).bind fun _ => (noErr_child _ _).bind fun _ => (noErr_zones _ _ _ _).bind fun _ => (noErr_fileXml _ _).bind fun _ => noErr_fileJson _ _

/-! ## What must be there -/

/-- the tree has an element of this name directly below its root -/
def HasChild (x : Node) (n : String) : Prop := ∃ c ∈ x.children, c.isElem = true ∧ c.name = lit n

theorem child_has {x c : Node} {n : String} (h : x.child n = .ok c) : HasChild x n := by
  unfold Node.child at h
  cases e : firstNamed (lit n) x.children with
  | none => rw [e] at h; cases h
  | some d =>
    have h1 := List.find?_some e
    unfold Node.named at h1
    rw [Bool.and_eq_true, beq_iff_eq] at h1
    exact ⟨d, List.mem_of_find?_eq_some e, h1⟩

theorem read3_has {x : Node} {n : String} {a b : O3} (h : read3 x n a = .ok b) : HasChild x n := by
  obtain ⟨c, h1, -⟩ := Out.bind_inv h
  exact child_has h1

theorem zone_needs {rd : Str → Option F64} {root : Node} {z z' : ZoneRead} (h : ZoneRead.read_xml rd root z = .ok z') :
    ∀ n ∈ ["ZoneName", "StrandId", "Org_Dim", "Real_Dim", "Org_Max", "Skip", "Begin", "End", "Real_Max", "Datas"], HasChild root n := by
  unfold ZoneRead.read_xml at h
  obtain ⟨_, h1, h⟩ := Out.bind_inv h
  obtain ⟨_, -, h⟩ := Out.bind_inv h
  obtain ⟨_, h2, h⟩ := Out.bind_inv h
  obtain ⟨_, -, h⟩ := Out.bind_inv h
  obtain ⟨_, -, h⟩ := Out.bind_inv h
  obtain ⟨_, -, h⟩ := Out.bind_inv h
  obtain ⟨_, h3, h⟩ := Out.bind_inv h
  obtain ⟨_, -, h⟩ := Out.bind_inv h
  obtain ⟨_, h4, h⟩ := Out.bind_inv h
  obtain ⟨_, -, h⟩ := Out.bind_inv h
  obtain ⟨_, h5, h⟩ := Out.bind_inv h
  obtain ⟨_, h6, h⟩ := Out.bind_inv h
  obtain ⟨_, h7, h⟩ := Out.bind_inv h
  obtain ⟨_, h8, h⟩ := Out.bind_inv h
  obtain ⟨_, h9, h⟩ := Out.bind_inv h
  obtain ⟨_, -, h⟩ := Out.bind_inv h
  obtain ⟨_, h10, h⟩ := Out.bind_inv h
  intro n hn
  simp only [List.mem_cons, List.not_mem_nil, or_false] at hn
  rcases hn with rfl | rfl | rfl | rfl | rfl | rfl | rfl | rfl | rfl | rfl
  · exact child_has h1
  · exact child_has h2
  · exact child_has h3
  · exact child_has h4
  · exact read3_has h5
  · exact read3_has h6
  · exact read3_has h7
  · exact read3_has h8
  · exact read3_has h9
  · exact child_has h10

theorem zones_needs {rd : Str → Option F64} {junk : Nat → Junk} {l : List Node} : ∀ {i : Nat} {r : List ZoneLog}, readZones rd junk l i = .ok r →
    r.length = l.length ∧ ∀ e ∈ l, ∀ n ∈ ["ZoneName", "StrandId", "Org_Dim", "Real_Dim", "Org_Max", "Skip", "Begin", "End", "Real_Max", "Datas"],
      HasChild e n := by
  induction l with
  | nil => intro i r h; cases h; exact ⟨rfl, fun e he => by cases he⟩
  | cons a l ih =>
    intro i r h
    unfold readZones at h
    obtain ⟨z, h1, h⟩ := Out.bind_inv h
    obtain ⟨z', -, h⟩ := Out.bind_inv h
    obtain ⟨r', h3, h⟩ := Out.bind_inv h
    cases h
    obtain ⟨i1, i2⟩ := ih h3
    refine ⟨by rw [List.length_cons, List.length_cons, i1], fun e he => ?_⟩
    rcases List.mem_cons.1 he with rfl | he
    · exact zone_needs h1
    · exact i2 e he

/-- the parts of a successful `read_xml` -/
theorem file_needs {F : Fmt} {rd : Str → Option F64} {junk : Nat → Junk} {root : Node} {l l' : FileLog}
    (h : FileLog.read_xml F rd junk root l = .ok l') :
    (root.attr "FileName").isSome ∧
    (∀ n ∈ ["FilePath", "Time", "UsingTime", "Title", "FileType", "Variables", "Zones"], HasChild root n) ∧
    ∃ vs zs, root.child "Variables" = .ok vs ∧ root.child "Zones" = .ok zs ∧ l'.Variables = l.Variables ++ vs.elems.map Node.name ∧
      l'.Zones.length = l.Zones.length + zs.elems.length ∧
      ∀ e ∈ zs.elems, ∀ n ∈ ["ZoneName", "StrandId", "Org_Dim", "Real_Dim", "Org_Max", "Skip", "Begin", "End", "Real_Max", "Datas"], HasChild e n := by
  unfold FileLog.read_xml at h
  obtain ⟨_, h1, h⟩ := Out.bind_inv h
  obtain ⟨_, h2, h⟩ := Out.bind_inv h
  obtain ⟨_, -, h⟩ := Out.bind_inv h
  obtain ⟨_, h3, h⟩ := Out.bind_inv h
  obtain ⟨_, -, h⟩ := Out.bind_inv h
  obtain ⟨_, h4, h⟩ := Out.bind_inv h
  obtain ⟨_, h5, h⟩ := Out.bind_inv h
  obtain ⟨_, -, h⟩ := Out.bind_inv h
  obtain ⟨_, h6, h⟩ := Out.bind_inv h
  obtain ⟨_, -, h⟩ := Out.bind_inv h
  obtain ⟨_, -, h⟩ := Out.bind_inv h
  obtain ⟨vs, h7, h⟩ := Out.bind_inv h
  obtain ⟨_, -, h⟩ := Out.bind_inv h
  obtain ⟨zs, h8, h⟩ := Out.bind_inv h
  obtain ⟨r, h9, h⟩ := Out.bind_inv h
  obtain ⟨m, h10, h11⟩ := Out.bind_inv h
  obtain ⟨z1, z2⟩ := zones_needs h9
  have e1 := fileGen_inv h10
  have e2 := (fileJson_bare h11).1
  refine ⟨?_, ?_, vs, zs, h7, h8, ?_, ?_, z2⟩
  · cases e : root.attr "FileName" with
    | none => rw [e] at h1; cases h1
    | some t => rfl
  · intro n hn
    simp only [List.mem_cons, List.not_mem_nil, or_false] at hn
    rcases hn with rfl | rfl | rfl | rfl | rfl | rfl | rfl
    · exact child_has h2
    · exact child_has h3
    · exact child_has h4
    · exact child_has h5
    · exact child_has h6
    · exact child_has h7
    · exact child_has h8
  · have : l'.Variables = m.Variables := (congrArg FileLog.Variables e2 : (bare l').Variables = (bare m).Variables)
    rw [this, e1]
  · have : l'.Zones.map zoneBare = m.Zones.map zoneBare := (congrArg FileLog.Zones e2 : (bare l').Zones = (bare m).Zones)
    have := congrArg List.length this
    rw [List.length_map, List.length_map] at this
    rw [this, e1]
    simp [z1]

end Verif.Xml
