import Verif.Proof.TecW5
import Verif.Proof.Loops
import Verif.Spec.TecSplice
/-!
# The marks of the zones in the texts of a log
-/
namespace Verif.Tec
open Spec

/-- the mark of a zone -/
def mark : Str := lit "#ZONE#"

/-! ## Putting the texts of the zones in -/

theorem splice_run {zone : ZoneLog → M Str Unit} {line : Str → M Str Unit} {zt : ZoneLog → Str} {lt : Str → Str}
    (hz : ∀ z s, zone z s = .ok () (s ++ zt z)) (hl : ∀ t s, line t s = .ok () (s ++ lt t)) (l : List Str) :
    ∀ (zs : List ZoneLog) (s : Str), l.count mark = zs.length →
      ∃ t, splice zone line l zs s = .ok () (s ++ t) ∧ Nonempty (Woven mark lt zt l zs t) := by
  induction l with
  | nil =>
    intro zs s h
    have : zs = [] := List.length_eq_zero_iff.mp h.symm
    subst this
    exact ⟨[], by rw [List.append_nil]; rfl, ⟨⟨[], [], rfl, ⟨by simp, by simp⟩, rfl, rfl⟩⟩⟩
  | cons t l ih =>
    intro zs s h
    by_cases e : t = mark
    · subst e
      rw [List.count_cons_self] at h
      cases zs with
      | nil => simp at h
      | cons z zs =>
        obtain ⟨u, hu, ⟨w⟩⟩ := ih zs (s ++ zt z) (by simpa using h)
        refine ⟨zt z ++ u, ?_, ⟨⟨[], w.first :: w.rest, by simp [w.count], ⟨by simp, ?_⟩, ?_, ?_⟩⟩⟩
        · unfold splice
          rw [if_pos (show mark = lit "#ZONE#" from rfl), ← List.append_assoc]
          exact (M.bind_ok (hz z s)).trans hu
        · intro l hl
          rcases List.mem_cons.mp hl with rfl | hl
          · exact w.clean.1
          · exact w.clean.2 l hl
        · rw [List.flatMap_cons, List.nil_append, List.cons_append, ← w.whole]
        · conv_lhs => rw [w.out]
          simp only [List.flatMap_nil, List.nil_append, List.zip_cons_cons, List.flatMap_cons, List.append_assoc]
    · rw [List.count_cons_of_ne e] at h
      obtain ⟨u, hu, ⟨w⟩⟩ := ih zs (s ++ lt t) h
      refine ⟨lt t ++ u, ?_, ⟨⟨t :: w.first, w.rest, w.count, ⟨?_, w.clean.2⟩, ?_, ?_⟩⟩⟩
      · unfold splice
        rw [if_neg (show ¬t = lit "#ZONE#" from e), ← List.append_assoc]
        exact (M.bind_ok (hl t s)).trans hu
      · intro hm
        rcases List.mem_cons.mp hm with h' | h'
        · exact e h'.symm
        · exact w.clean.1 h'
      · rw [List.cons_append, ← w.whole]
      · conv_lhs => rw [w.out]
        simp only [List.flatMap_cons, List.append_assoc]

/-- the text is determined -/
theorem woven_split {L : Type} {m : L} (f : List L) : ∀ {g : List L} {r q : List (List L)}, m ∉ f → m ∉ g → (∀ l ∈ r, m ∉ l) → (∀ l ∈ q, m ∉ l) →
    (f ++ r.flatMap fun l => m :: l) = (g ++ q.flatMap fun l => m :: l) → r.length = q.length → f = g ∧ r = q := by
  intro g r
  induction r generalizing f g with
  | nil =>
    intro q _ _ _ _ e hl
    have : q = [] := List.length_eq_zero_iff.mp hl.symm
    subst this
    simpa using e
  | cons a r ih =>
    intro q hf hg hr hq e hl
    cases q with
    | nil => simp at hl
    | cons b q =>
      rw [List.flatMap_cons, List.flatMap_cons, List.cons_append, List.cons_append] at e
      have fg : f = g := by
        induction f generalizing g with
        | nil =>
          cases g with
          | nil => rfl
          | cons y g =>
            simp only [List.nil_append, List.cons_append, List.cons.injEq] at e
            exact absurd (by rw [e.1]; simp) hg
        | cons x f ihf =>
          cases g with
          | nil =>
            simp only [List.nil_append, List.cons_append, List.cons.injEq] at e
            exact absurd (by rw [e.1]; simp) hf
          | cons y g =>
            simp only [List.cons_append, List.cons.injEq] at e
            rw [e.1, ihf (fun h => hf (by simp [h])) (fun h => hg (by simp [h])) e.2]
      subst fg
      have e2 := List.append_cancel_left e
      simp only [List.cons.injEq, true_and] at e2
      obtain ⟨h1, h2⟩ := ih a (hr a (by simp)) (hq b (by simp)) (fun l h => hr l (by simp [h])) (fun l h => hq l (by simp [h])) e2 (by simpa using hl)
      rw [h1, h2]; exact ⟨rfl, rfl⟩

theorem woven_unique {L Z C : Type} {m : L} {line : L → List C} {zone : Z → List C} {lines : List L} {zs : List Z} {t u : List C}
    (x : Woven m line zone lines zs t) (y : Woven m line zone lines zs u) : t = u := by
  obtain ⟨h1, h2⟩ := woven_split x.first x.clean.1 y.clean.1 x.clean.2 y.clean.2 (x.whole.symm.trans y.whole) (x.count.trans y.count.symm)
  rw [x.out, y.out, h1, h2]

theorem putLine_run (t s : Str) : putLine t s = .ok () (s ++ (cstr t ++ lit "\n")) := rfl

theorem length_ints (b : Int) (n : Nat) : (ints b n).length = n := by
  induction n generalizing b with
  | zero => rfl
  | succ n ih => show (_ :: ints _ n).length = _; rw [List.length_cons, ih]

theorem tabs_run {d : Int} (h : 0 ≤ d) (s : Str) : tabs d s = .ok () (s ++ List.replicate d.toNat 9) := by
  have : ∀ (l : List Int) (s : Str), runAll (fun _ => emit (lit "\t")) l s = .ok () (s ++ List.replicate l.length 9) := by
    intro l
    induction l with
    | nil => intro s; show Res.ok () s = _; rw [List.length_nil, List.replicate_zero, List.append_nil]
    | cons a l ih =>
      intro s
      show (emit (lit "\t") >>= fun _ => runAll (fun _ => emit (lit "\t")) l) s = _
      rw [M.bind_ok (emit_run _ _), ih, List.length_cons, List.replicate_succ, List.append_assoc]
      rfl
  unfold tabs
  have e := forI_eq (σ := Str) 0 d h (fun _ => emit (lit "\t"))
  rw [Int.zero_add] at e
  rw [e, this]
  rw [length_ints]

theorem tabs_all (l : List Int) : ∀ s : Str, runAll (fun _ => emit (lit "\t")) l s = .ok () (s ++ List.replicate l.length 9) := by
  induction l with
  | nil => intro s; show Res.ok () s = _; rw [List.length_nil, List.replicate_zero, List.append_nil]
  | cons a l ih =>
    intro s
    show (emit (lit "\t") >>= fun _ => runAll (fun _ => emit (lit "\t")) l) s = _
    rw [M.bind_ok (emit_run _ _), ih, List.length_cons, List.replicate_succ, List.append_assoc]
    rfl

theorem tabLine_run {d : Int} (h : 0 ≤ d) (t s : Str) :
    (tabs d >>= fun _ => putLine t) s = .ok () (s ++ (List.replicate d.toNat 9 ++ (cstr t ++ lit "\n"))) := by
  rw [M.bind_ok (tabs_run h s), putLine_run, List.append_assoc]

/-! ## Counting the marks -/

/-- `k` marks and `j` zone logs were added -/
structure Cnt (k j : Nat) (s s' : FSt) : Prop where
  marks : s'.f.last_log.Echo_Text.count mark = s.f.last_log.Echo_Text.count mark + k
  logs : s'.f.last_log.Zones.length = s.f.last_log.Zones.length + j
  zones : s'.f.Zones.length = s.f.Zones.length
  json : s'.f.last_log.Json_Text = s.f.last_log.Json_Text
  xml : s'.f.last_log.Xml_Text = s.f.last_log.Xml_Text

theorem Cnt.refl (s : FSt) : Cnt 0 0 s s := ⟨rfl, rfl, rfl, rfl, rfl⟩
theorem Cnt.trans {k j k' j' : Nat} {a b c : FSt} (x : Cnt k j a b) (y : Cnt k' j' b c) : Cnt (k + k') (j + j') a c where
  marks := by rw [y.marks, x.marks]; omega
  logs := by rw [y.logs, x.logs]; omega
  zones := y.zones.trans x.zones
  json := y.json.trans x.json
  xml := y.xml.trans x.xml
theorem Cnt.cast {k j k' j' : Nat} {a b : FSt} (x : Cnt k j a b) (hk : k = k') (hj : j = j') : Cnt k' j' a b := by
  subst hk; subst hj; exact x

/-- the last line does not begin with `#` -/
def Tail (s : FSt) : Prop := ∃ rest last, s.f.last_log.Echo_Text = rest ++ [last] ∧ ∃ c, last.head? = some c ∧ c ≠ 35

theorem ne_mark {t : Str} {c : Byte} (h : t.head? = some c) (hc : c ≠ 35) : t ≠ mark := by
  rintro rfl
  have : mark.head? = some 35 := by decide
  rw [this] at h
  exact hc (Option.some.inj h).symm

def Counts {α : Type} (k j : Nat) (m : M FSt α) : Prop := ∀ s a s', m s = .ok a s' → Cnt k j s s'
def CountsT {α : Type} (m : M FSt α) : Prop := ∀ s a s', Tail s → m s = .ok a s' → Cnt 0 0 s s' ∧ Tail s'

namespace Counts
variable {α β : Type}
theorem pure (a : α) : Counts 0 0 (Pure.pure a : M FSt α) := by
  intro s a s' h; cases h; exact .refl s
theorem bind {k j k' j' : Nat} {m : M FSt α} {f : α → M FSt β} (hm : Counts k j m) (hf : ∀ a, Counts k' j' (f a)) : Counts (k + k') (j + j') (m >>= f) := by
  intro s r s' h
  obtain ⟨a, s1, h1, h2⟩ := M.bind_inv h
  exact (hm s a s1 h1).trans (hf a s1 r s' h2)
theorem bindq {k j : Nat} {m : M FSt α} {f : α → M FSt β} (hm : Counts 0 0 m) (hf : ∀ a, Counts k j (f a)) : Counts k j (m >>= f) := by
  have := bind hm hf
  rw [Nat.zero_add, Nat.zero_add] at this
  exact this
theorem liftM (o : Out α) : Counts 0 0 (liftM o : M FSt α) := by
  intro s a s' h
  rw [M.liftM_eq] at h
  obtain ⟨-, rfl⟩ := M.lift_inv h
  exact .refl _
theorem get : Counts 0 0 (M.get : M FSt FSt) := by
  intro s a s' h; cases h; exact .refl s
theorem ifB {b : Bool} {m : M FSt Unit} (hm : Counts 0 0 m) : Counts 0 0 (Tec.ifB b m) := by
  unfold Tec.ifB
  cases b
  · exact pure ()
  · exact hm
theorem print (echo : Bool) (t : Str) : Counts 0 0 (FSt.print echo t) := by
  unfold FSt.print
  cases echo
  · exact pure ()
  · intro s a s' h; cases h; exact ⟨rfl, rfl, rfl, rfl, rfl⟩
theorem push {t : Str} {c : Byte} (ht : t.head? = some c) (hc : c ≠ 35) : Counts 0 0 (FSt.push t) := by
  intro s a s' h; cases h
  refine ⟨?_, rfl, rfl, rfl, rfl⟩
  show (s.f.last_log.Echo_Text ++ [t]).count mark = _
  rw [List.count_append, List.count_cons_of_ne (ne_mark ht hc)]; rfl
theorem pushMark : Counts 1 0 (FSt.push (lit "#ZONE#")) := by
  intro s a s' h; cases h
  refine ⟨?_, rfl, rfl, rfl, rfl⟩
  show (s.f.last_log.Echo_Text ++ [mark]).count mark = _
  rw [List.count_append, List.count_cons_self]; rfl
theorem modLog {g : FileLog → FileLog} (h1 : ∀ l, (g l).Echo_Text = l.Echo_Text) (h2 : ∀ l, (g l).Zones = l.Zones)
    (h3 : ∀ l, (g l).Json_Text = l.Json_Text) (h4 : ∀ l, (g l).Xml_Text = l.Xml_Text) : Counts 0 0 (FSt.modLog g) := by
  intro s a s' h; cases h
  refine ⟨?_, ?_, rfl, h3 _, h4 _⟩
  · show (g s.f.last_log).Echo_Text.count mark = _
    rw [h1]; rfl
  · show (g s.f.last_log).Zones.length = _
    rw [h2]; rfl
theorem file {m : M Str Unit} : Counts 0 0 (FSt.file m) := by
  intro s a s' h
  unfold FSt.file at h
  split at h
  · cases h; exact ⟨rfl, rfl, rfl, rfl, rfl⟩
  · cases h
  · cases h
theorem zone {i : Nat} {m : M ZSt α} : Counts 0 0 (FSt.zone i m) := by
  intro s a s' h
  unfold FSt.zone at h
  split at h
  · split at h
    · cases h; exact ⟨rfl, by simp, by simp, rfl, rfl⟩
    · cases h
    · cases h
  · cases h
theorem each {l : List α} {f : α → M FSt Unit} (hf : ∀ a, Counts 0 0 (f a)) : Counts 0 0 (Tec.each l f) := by
  induction l with
  | nil => exact pure ()
  | cons a l ih => exact bindq (hf a) fun _ => ih
theorem eachIdx {k j : Nat} {l : List α} {f : Nat → α → M FSt Unit} (hf : ∀ i a, Counts k j (f i a)) :
    ∀ n, Counts (l.length * k) (l.length * j) (Tec.eachIdx f n l) := by
  induction l with
  | nil => intro n; rw [List.length_nil, Nat.zero_mul, Nat.zero_mul]; exact pure ()
  | cons a l ih =>
    intro n s u s' h
    exact (bind (hf n a) (fun _ => ih (n + 1)) s u s' h).cast (by rw [List.length_cons, Nat.succ_mul]; omega) (by rw [List.length_cons, Nat.succ_mul]; omega)
end Counts

namespace CountsT
variable {α β : Type}
theorem pure (a : α) : CountsT (Pure.pure a : M FSt α) := by
  intro s a s' t h; cases h; exact ⟨.refl s, t⟩
theorem bind {m : M FSt α} {f : α → M FSt β} (hm : CountsT m) (hf : ∀ a, CountsT (f a)) : CountsT (m >>= f) := by
  intro s r s' t h
  obtain ⟨a, s1, h1, h2⟩ := M.bind_inv h
  obtain ⟨c1, t1⟩ := hm s a s1 t h1
  obtain ⟨c2, t2⟩ := hf a s1 r s' t1 h2
  exact ⟨c1.trans c2, t2⟩
theorem print (echo : Bool) (t : Str) : CountsT (FSt.print echo t) := by
  unfold FSt.print
  cases echo
  · exact pure ()
  · intro s a s' t h; cases h; exact ⟨⟨rfl, rfl, rfl, rfl, rfl⟩, t⟩
theorem file {m : M Str Unit} : CountsT (FSt.file m) := by
  intro s a s' t h
  unfold FSt.file at h
  split at h
  · cases h; exact ⟨⟨rfl, rfl, rfl, rfl, rfl⟩, t⟩
  · cases h
  · cases h
theorem append (t : Str) : CountsT (FSt.append t) := by
  rintro s a s' ⟨rest, last, e, c, hc, hn⟩ h
  unfold FSt.append at h
  rw [e, List.reverse_append, List.reverse_singleton, List.singleton_append] at h
  cases h
  have hh : (last ++ t).head? = some c := by
    cases last with
    | nil => simp at hc
    | cons x l => exact hc
  refine ⟨⟨?_, rfl, rfl, rfl, rfl⟩, ⟨rest, last ++ t, ?_, c, hh, hn⟩⟩
  · show (rest.reverse.reverse ++ [last ++ t]).count mark = _
    rw [List.reverse_reverse, e, List.count_append, List.count_append, List.count_cons_of_ne (ne_mark hh hn), List.count_cons_of_ne (ne_mark hc hn)]
    rfl
  · show rest.reverse.reverse ++ [last ++ t] = _
    rw [List.reverse_reverse]
theorem each {l : List α} {f : α → M FSt Unit} (hf : ∀ a, CountsT (f a)) : CountsT (Tec.each l f) := by
  induction l with
  | nil => exact pure ()
  | cons a l ih => exact bind (hf a) fun _ => ih
end CountsT

/-- a line is pushed, then lines are extended -/
theorem Counts.pushT {β : Type} {t : Str} {c : Byte} (ht : t.head? = some c) (hc : c ≠ 35) {m : M FSt β} (hm : CountsT m) :
    Counts 0 0 (FSt.push t >>= fun _ => m) := by
  intro s a s' h
  obtain ⟨u, s1, h1, h2⟩ := M.bind_inv h
  have c1 := Counts.push ht hc s u s1 h1
  have t1 : Tail s1 := by cases h1; exact ⟨_, t, rfl, c, ht, hc⟩
  exact c1.trans (hm s1 a s' t1 h2).1

theorem counts_zoneLine (echo : Bool) (i : Nat) (z : Zone) : Counts 0 0 (TecFile.zoneLine echo i z) := by
  intro s a s' h
  unfold TecFile.zoneLine at h
  obtain ⟨b, s1, h1, h2⟩ := M.bind_inv h
  rw [M.liftM_eq] at h1
  obtain ⟨e, rfl⟩ := M.lift_inv h1
  unfold sprintf at e
  split at e
  · cases e
    exact (Counts.bindq (.print _ _) fun _ => .push (c := 45) rfl (by decide)) _ _ _ h2
  · cases e

theorem counts_line {c : Out Str} {x : Str} {cc : Byte} {echo : Bool} (hc : ∀ b, c = .ok b → b = x) (hx : x.head? = some cc) (hn : cc ≠ 35) :
    Counts 0 0 (liftM c >>= fun b => FSt.print echo (b ++ lit "\n") >>= fun _ => FSt.push b) := by
  intro s a s' h
  obtain ⟨b, s1, h1, h2⟩ := M.bind_inv h
  rw [M.liftM_eq] at h1
  obtain ⟨e, rfl⟩ := M.lift_inv h1
  have := hc b e
  subst this
  exact (Counts.bindq (.print _ _) fun _ => .push hx hn) _ _ _ h2

theorem sprintf_inv {n : Nat} {x b : Str} (h : sprintf n x = .ok b) : b = x := by
  unfold sprintf at h
  split at h <;> cases h
  rfl

theorem counts_fileLine {echo on stamp : Bool} {time : Str} : Counts 0 0 (TecFile.fileLine echo on stamp time) := by
  intro s a s' h
  unfold TecFile.fileLine at h
  rw [M.get_bind_run] at h
  cases stamp with
  | true =>
    refine (Counts.ifB ?_) s a s' h
    intro s a s' h
    obtain ⟨u, s1, h1, h2⟩ := M.bind_inv h
    have h1' : (FSt.print echo (lit "[" ++ cstr time ++ lit "] ") >>= fun _ => FSt.push (lit "[" ++ time ++ lit "] ")) s = .ok u s1 := h1
    have h3 := (Counts.bindq (.print echo (lit "[" ++ cstr time ++ lit "] ")) fun _ => Counts.push (t := lit "[" ++ time ++ lit "] ") (c := 91) rfl (by decide)) s u s1 h1'
    have t1 : Tail s1 := by
      obtain ⟨v, s2, -, h5⟩ := M.bind_inv h1'
      cases h5
      exact ⟨_, _, rfl, 91, rfl, by decide⟩
    exact h3.trans ((CountsT.bind (.print _ _) fun _ => .append _) s1 a s' t1 h2).1
  | false =>
    refine (Counts.ifB (.bindq (.ifB ?_) fun _ => .bindq (.print _ _) fun _ => ?_)) s a s' h
    · exact .bindq (.print _ _) fun _ => .push (c := 91) rfl (by decide)
    · intro s a s' h
      have h' : FSt.push (lit "#### creat file " ++ _ ++ lit " ####") s = .ok a s' := h
      cases h'
      refine ⟨?_, rfl, rfl, rfl, rfl⟩
      show (s.f.last_log.Echo_Text ++ [_]).count mark = _
      rw [List.count_append, List.count_cons_of_ne]; rfl
      intro e
      have := congrArg (fun t : Str => t[1]?) e
      revert this
      show ¬(some 35 = mark[1]?)
      decide

theorem counts_dataZone (F : Fmt) (vars : List Str) (echo : Bool) (i : Nat) (z : Zone) : Counts 1 0 (TecFile.dataZone F vars echo i z) :=
  .bindq (.ifB (counts_zoneLine _ _ _)) fun _ => .bindq .zone fun _ => .bind (j := 0) (j' := 0) .pushMark fun _ => .ifB (counts_zoneLine _ _ _)

theorem counts_headVar (echo : Bool) (v : Str) : CountsT (TecFile.headVar echo true v) :=
  .bind .file fun _ => .bind (.print _ _) fun _ => .append _

theorem counts_head {echo : Bool} : Counts 0 0 (TecFile.write_plt_head echo) := by
  intro s a s' h
  unfold TecFile.write_plt_head at h
  rw [M.get_bind_run] at h
  refine (Counts.bindq .file fun _ => .bindq .file fun _ => .bindq .file fun _ => .bindq .file fun _ => .bindq .file fun _ => ?_) s a s' h
  clear h
  have tl : ∀ b : Bool, Counts 0 0 (do
      ifB b (FSt.print echo (lit "\n"))
      each s.f.Zones fun z => FSt.file (Zone.write_plt_head z)
      each s.f.Auxiliary fun e => FSt.file do
        W_FLOAT32 f799
        W_STRING e.1
        W_INT32 0
        W_STRING e.2) := fun b => .bindq (.ifB (.print _ _)) fun _ => .bindq (.each fun _ => .file) fun _ => .each fun _ => .file
  cases test s.f.Echo_Mode 2 with
  | false =>
    exact .bindq (.pure ()) fun _ => .bindq (.each fun v => .bindq .file fun _ => .pure ()) fun _ => tl false
  | true =>
    intro s1 a s2 h
    obtain ⟨u, s3, h1, h2⟩ := M.bind_inv h
    have h1' : (FSt.print echo (lit "     VAR:") >>= fun _ => FSt.push (lit "     VAR:")) s1 = .ok u s3 := h1
    have c1 := (Counts.bindq (.print echo (lit "     VAR:")) fun _ => Counts.push (t := lit "     VAR:") (c := 32) rfl (by decide)) s1 u s3 h1'
    have t1 : Tail s3 := by
      obtain ⟨v, s4, -, h5⟩ := M.bind_inv h1'
      cases h5
      exact ⟨_, _, rfl, 32, rfl, by decide⟩
    obtain ⟨v, s5, h6, h7⟩ := M.bind_inv h2
    have c2 := (CountsT.each (fun v => counts_headVar echo v) s3 v s5 t1 h6).1
    exact (c1.trans c2).trans (tl true s5 a s2 h7)

/-! ## Checks -/

theorem counts_preZone (i : Nat) (z : Zone) : Counts 0 1 (TecFile.preZone i z) := by
  intro s a s' h
  unfold TecFile.preZone FSt.recordErr at h
  split at h
  · rename_i e
    cases h
    refine (Counts.bind (k := 0) (j := 1) (k' := 0) (j' := 0) ?_ fun _ => .bindq .get fun _ => .zone) s _ _ e
    intro s a s' h; cases h
    exact ⟨rfl, by simp, rfl, rfl, rfl⟩
  · cases h
  · cases h

theorem pre_counts {s s' : FSt} (h : TecFile.wrtie_plt_pre s = .ok () s') : Cnt 0 s.f.Zones.length s s' := by
  unfold TecFile.wrtie_plt_pre at h
  rw [M.get_bind_run] at h
  split at h
  · cases h
  · split at h
    · cases h
    · exact (Counts.eachIdx (fun i z => counts_preZone i z) 0 _ _ _ h).cast (by omega) (by omega)

/-! ## Texts in json and xml -/

/-- no line begins with `#` -/
def NoMark (l : List Str) : Prop := l.count mark = 0

theorem noMark_cons {t : Str} {c : Byte} {l : List Str} (ht : t.head? = some c) (hc : c ≠ 35) (h : NoMark l) : NoMark (t :: l) := by
  unfold NoMark; rw [List.count_cons_of_ne (ne_mark ht hc)]; exact h
theorem noMark_nil : NoMark [] := rfl

theorem lines_noMark {α : Type} {f : Nat → α → Bool → Out Str} {c : Byte} (hc : c ≠ 35) (hf : ∀ i a b t, f i a b = .ok t → t.head? = some c) (l : List α) :
    ∀ i r, lines f i l = .ok r → NoMark r := by
  induction l with
  | nil => intro i r h; cases h; exact noMark_nil
  | cons a l ih =>
    intro i r h
    obtain ⟨t, h1, h⟩ := Out.bind_inv h
    obtain ⟨q, h2, h⟩ := Out.bind_inv h
    cases h
    exact noMark_cons (hf _ _ _ _ h1) hc (ih _ _ h2)

theorem append_noMark {a b : List Str} (ha : NoMark a) (hb : NoMark b) : NoMark (a ++ b) := by
  unfold NoMark at *; rw [List.count_append, ha, hb]

theorem jsonAux_noMark {m : AuxMap} {r : List Str} (h : jsonAux m = .ok r) : NoMark r := by
  unfold jsonAux at h
  split at h
  · obtain ⟨l, h1, h⟩ := Out.bind_inv h
    cases h
    refine noMark_cons (c := 9) rfl (by decide) (append_noMark (lines_noMark (c := 9) (by decide) ?_ _ _ _ h1) (noMark_cons (c := 9) rfl (by decide) noMark_nil))
    intro i a b t h
    obtain ⟨q, h2, h⟩ := Out.bind_inv h
    rw [sprintf_inv h2] at h
    cases h
    cases b <;> rfl
  · cases h; exact noMark_nil

theorem xmlAux_noMark {m : AuxMap} {r : List Str} (h : xmlAux m = .ok r) : NoMark r := by
  unfold xmlAux at h
  split at h
  · obtain ⟨l, h1, h⟩ := Out.bind_inv h
    cases h
    refine noMark_cons (c := 9) rfl (by decide) (append_noMark (lines_noMark (c := 9) (by decide) ?_ _ _ _ h1) (noMark_cons (c := 9) rfl (by decide) noMark_nil))
    intro i a b t h
    rw [sprintf_inv h]
    rfl
  · cases h; exact noMark_nil

theorem jsonMarks_count (l : List ZoneLog) : (jsonMarks l).count mark = l.length := by
  induction l with
  | nil => rfl
  | cons z l ih =>
    unfold jsonMarks
    cases l with
    | nil => rfl
    | cons y l =>
      rw [if_neg (by simp), show lit "#ZONE#" = mark from rfl, List.count_cons_self, List.count_cons_of_ne (by decide), ih]
      rfl

theorem xmlMarks_count (l : List ZoneLog) : (l.map fun _ => mark).count mark = l.length := by
  induction l with
  | nil => rfl
  | cons z l ih => rw [List.map_cons, List.count_cons_self, ih]; rfl

theorem json_count {F : Fmt} {l l' : FileLog} (h : FileLog.gen_json F l = .ok l') :
    l'.Json_Text.count mark = l.Json_Text.count mark + l.Zones.length ∧ l'.Zones.length = l.Zones.length ∧
      l'.Echo_Text = l.Echo_Text ∧ l'.Xml_Text = l.Xml_Text := by
  unfold FileLog.gen_json at h
  obtain ⟨t1, h1, h⟩ := Out.bind_inv h
  obtain ⟨t2, h2, h⟩ := Out.bind_inv h
  obtain ⟨t3, h3, h⟩ := Out.bind_inv h
  obtain ⟨u, -, h⟩ := Out.bind_inv h
  obtain ⟨t4, h4, h⟩ := Out.bind_inv h
  obtain ⟨t5, h5, h⟩ := Out.bind_inv h
  obtain ⟨t6, h6, h⟩ := Out.bind_inv h
  obtain ⟨t7, h7, h⟩ := Out.bind_inv h
  obtain ⟨aux, h8, h⟩ := Out.bind_inv h
  obtain ⟨zs, hz, h⟩ := Out.bind_inv h
  have h' := Out.ok.inj h
  clear h
  subst h'
  refine ⟨?_, (eachZone_inv _ _ hz).1, rfl, rfl⟩
  have e7 : t7.head? = some 9 := by
    unfold jsonVars at h7
    obtain ⟨q, -, h7⟩ := Out.bind_inv h7
    cases h7; rfl
  have a1 : NoMark [lit "{", t1, t2, t3, t4, t5, lit "\t\"FileType_comment\" : \"0 = FULL, 1 = GRID, 2 = SOLUTION\" ,", t6, t7] := by
    rw [sprintf_inv h1, sprintf_inv h2, sprintf_inv h3, sprintf_inv h4, sprintf_inv h5, sprintf_inv h6]
    refine noMark_cons (c := 123) rfl (by decide) (noMark_cons (c := 9) rfl (by decide) (noMark_cons (c := 9) rfl (by decide)
      (noMark_cons (c := 9) rfl (by decide) (noMark_cons (c := 9) rfl (by decide) (noMark_cons (c := 9) rfl (by decide)
      (noMark_cons (c := 9) rfl (by decide) (noMark_cons (c := 9) rfl (by decide) (noMark_cons e7 (by decide) noMark_nil))))))))
  have a2 := jsonAux_noMark h8
  unfold NoMark at a1 a2
  show (l.Json_Text ++ _ ++ aux ++ _ ++ jsonMarks l.Zones ++ _).count mark = _
  simp only [List.count_append, a1, a2, jsonMarks_count]
  have a3 : List.count mark [lit "\t\"Zones\" : ["] = 0 := by decide
  have a4 : List.count mark [lit "\t]", lit "}"] = 0 := by decide
  rw [a3, a4]
  omega

theorem xml_count {F : Fmt} {l l' : FileLog} (h : FileLog.gen_xml F l = .ok l') :
    l'.Xml_Text.count mark = l.Xml_Text.count mark + l.Zones.length ∧ l'.Zones.length = l.Zones.length ∧
      l'.Echo_Text = l.Echo_Text ∧ l'.Json_Text = l.Json_Text := by
  unfold FileLog.gen_xml at h
  obtain ⟨t0, h0, h⟩ := Out.bind_inv h
  obtain ⟨t1, h1, h⟩ := Out.bind_inv h
  obtain ⟨t2, h2, h⟩ := Out.bind_inv h
  obtain ⟨t3, h3, h⟩ := Out.bind_inv h
  obtain ⟨u, -, h⟩ := Out.bind_inv h
  obtain ⟨t4, h4, h⟩ := Out.bind_inv h
  obtain ⟨t5, h5, h⟩ := Out.bind_inv h
  obtain ⟨t6, h6, h⟩ := Out.bind_inv h
  obtain ⟨t7, h7, h⟩ := Out.bind_inv h
  obtain ⟨t8, h8, h⟩ := Out.bind_inv h
  obtain ⟨aux, h9, h⟩ := Out.bind_inv h
  obtain ⟨zs, hz, h⟩ := Out.bind_inv h
  cases h
  refine ⟨?_, (eachZone_inv _ _ hz).1, rfl, rfl⟩
  have e8 : t8.head? = some 9 := by
    unfold xmlVars at h8
    obtain ⟨q, -, h8⟩ := Out.bind_inv h8
    cases h8; rfl
  have a1 : NoMark [t0, t1, t2, t3, t4, t5, t6, t7, t8] := by
    rw [sprintf_inv h0, sprintf_inv h1, sprintf_inv h2, sprintf_inv h3, sprintf_inv h4, sprintf_inv h5, sprintf_inv h6, sprintf_inv h7]
    refine noMark_cons (c := 60) rfl (by decide) (noMark_cons (c := 9) rfl (by decide) (noMark_cons (c := 9) rfl (by decide)
      (noMark_cons (c := 9) rfl (by decide) (noMark_cons (c := 9) rfl (by decide) (noMark_cons (c := 9) rfl (by decide)
      (noMark_cons (c := 9) rfl (by decide) (noMark_cons (c := 9) rfl (by decide) (noMark_cons e8 (by decide) noMark_nil))))))))
  have a2 := xmlAux_noMark h9
  unfold NoMark at a1 a2
  have a5 := xmlMarks_count l.Zones
  unfold mark at *
  show (l.Xml_Text ++ _ ++ aux ++ _ ++ l.Zones.map _ ++ _).count _ = _
  simp only [List.count_append, a1, a2, a5]
  have a3 : List.count (lit "#ZONE#") [lit "\t<Zones>"] = 0 := by decide
  have a4 : List.count (lit "#ZONE#") [lit "\t</Zones>", lit "</File>"] = 0 := by decide
  rw [a3, a4]
  omega

/-! ## `write_plt` -/

theorem plt_marks {E : Env} {echo : Bool} {s s' : FSt} (r : TecFile.write_plt E echo s = .ok () s') :
    s'.f.last_log.Zones.length = s.f.Zones.length ∧ s'.f.last_log.Echo_Text.count mark = s.f.Zones.length ∧
    s'.f.last_log.Json_Text.count mark = s.f.Zones.length ∧ s'.f.last_log.Xml_Text.count mark = s.f.Zones.length := by
  rw [write_plt_eq] at r
  obtain ⟨_, s1, r1, r⟩ := M.bind_inv r
  have c1 := pre_counts r1
  unfold TecFile.write_body at r
  obtain ⟨_, s2, r2, r⟩ := M.bind_inv r
  have c2 : Cnt 0 0 s1 s2 := by
    unfold TecFile.openFile at r2
    simp only at r2
    split at r2
    · cases r2; exact ⟨rfl, rfl, rfl, rfl, rfl⟩
    · cases r2
  rw [M.get_bind_run] at r
  obtain ⟨_, s3, r3, r⟩ := M.bind_inv r
  have c3 := counts_fileLine _ _ _ r3
  obtain ⟨_, s4, r4, r⟩ := M.bind_inv r
  have c4 := counts_head _ _ _ r4
  obtain ⟨_, s5, r5, r⟩ := M.bind_inv r
  have c5 := Counts.file _ _ _ r5
  obtain ⟨_, s6, r6, r⟩ := M.bind_inv r
  have c6 := (Counts.ifB (.bindq (.print _ _) fun _ => .push (c := 45) rfl (by decide))) _ _ _ r6
  obtain ⟨_, s7, r7, r⟩ := M.bind_inv r
  have c7 : Cnt s6.f.Zones.length 0 s6 s7 := by
    unfold TecFile.write_plt_data at r7
    rw [M.get_bind_run] at r7
    exact (Counts.eachIdx (fun i z => counts_dataZone _ _ _ i z) 0 _ _ _ r7).cast (by omega) (by omega)
  rw [M.get_bind_run] at r
  obtain ⟨_, s8, r8, r⟩ := M.bind_inv r
  have c8 : Cnt 0 0 s7 s8 := by cases r8; exact ⟨rfl, rfl, rfl, rfl, rfl⟩
  obtain ⟨_, s9, r9, r⟩ := M.bind_inv r
  have c9 := Counts.ifB (counts_line (fun b h => sprintf_inv h) (cc := 32) rfl (by decide)) _ _ _ r9
  obtain ⟨_, s10, r10, r⟩ := M.bind_inv r
  have c10 : Cnt 0 0 s9 s10 := by cases r10; exact ⟨rfl, rfl, rfl, rfl, rfl⟩
  obtain ⟨_, s11, r11, r⟩ := M.bind_inv r
  have c11 : Cnt 0 0 s10 s11 := by cases r11; exact ⟨rfl, rfl, rfl, rfl, rfl⟩
  obtain ⟨_, s12, r12, r⟩ := M.bind_inv r
  have c12 := Counts.ifB (counts_line (fun b h => sprintf_inv h) (cc := 32) rfl (by decide)) _ _ _ r12
  obtain ⟨_, s13, r13, r⟩ := M.bind_inv r
  have c13 : Cnt 0 0 s12 s13 := by cases r13; exact ⟨rfl, rfl, rfl, rfl, rfl⟩
  obtain ⟨_, s14, r14, r⟩ := M.bind_inv r
  have c14 := counts_fileLine _ _ _ r14
  obtain ⟨_, s15, r15, r⟩ := M.bind_inv r
  obtain ⟨l, g1, e15⟩ := fsLog_inv r15
  obtain ⟨l', g2, e16⟩ := fsLog_inv r
  subst e15
  subst e16
  have b6 := (((((c1.trans c2).trans c3).trans c4).trans c5).trans c6)
  have b := (((((((b6.trans c7).trans c8).trans c9).trans c10).trans c11).trans c12).trans c13).trans c14
  have hm := b.marks
  have hl := b.logs
  have hj := b.json
  have hx := b.xml
  have hz := b6.zones
  have e1 : (s.started E).f.last_log.Echo_Text = [] := rfl
  have e2 : (s.started E).f.last_log.Zones = [] := rfl
  have e3 : (s.started E).f.last_log.Json_Text = [] := rfl
  have e4 : (s.started E).f.last_log.Xml_Text = [] := rfl
  have e5 : (s.started E).f.Zones = s.f.Zones := rfl
  rw [e1, List.count_nil] at hm
  rw [e2, List.length_nil, e5] at hl
  rw [e5] at hz
  obtain ⟨j1, j2, j3, j4⟩ := json_count g1
  obtain ⟨x1, x2, x3, x4⟩ := xml_count g2
  rw [hj, e3, List.count_nil] at j1
  rw [j4, hx, e4, List.count_nil] at x1
  refine ⟨?_, ?_, ?_, ?_⟩
  · show l'.Zones.length = _; rw [x2, j2, hl]; omega
  · show l'.Echo_Text.count mark = _; rw [x3, j3, hm]; omega
  · show l'.Json_Text.count mark = _; rw [x4, j1, hl]; omega
  · show l'.Xml_Text.count mark = _; rw [x1, j2, hl]; omega

end Verif.Tec
