import Verif.Proof.TecW1
import Verif.Proof.CopyFrame
/-!
# The data section of a zone
-/
namespace Verif.Tec
open Spec

/-! ## Reading changes nothing -/

theorem loadBytes_reads (n : Nat) : ∀ p, Reads (loadBytes n p) := by
  induction n with
  | zero => intro p; exact .pure _
  | succ n ih =>
    intro p
    unfold loadBytes
    refine .bind (Heap.lval_reads _) fun q => .bind (Heap.loadV_reads _) fun v => ?_
    cases v with
    | none => exact .undef _
    | some b => exact .bind (Heap.padd_reads _ _) fun p' => .bind (ih p') fun l => .pure _

theorem loadElem_reads (t : TecType) (p : Ptr) (i : Nat) : Reads (loadElem t p i) :=
  .bind (Heap.padd_reads _ _) fun _ => .bind (loadBytes_reads _ _) fun _ => .pure _

theorem loopZ_reads {σ A : Type} {f : Nat → A → M σ A} (hf : ∀ i a, Reads (f i a)) (k : Nat) : ∀ i a, Reads (loopZ f k i a) := by
  induction k with
  | zero => intro i a; exact .pure _
  | succ k ih => intro i a; exact .bind (hf i a) fun _ => ih _ _

theorem get_minmax_reads {σ T : Type} (gt lt : T → T → Bool) {data : Nat → M σ T} (hd : ∀ i, Reads (data i)) (N : Nat) :
    Reads (get_minmax gt lt data N) := by
  unfold get_minmax
  refine .bind (hd _) fun _ => .bind (hd _) fun _ => .bind (loopZ_reads (fun i a => ?_) _ _ _) fun _ => ?_
  · exact .bind (hd _) fun _ => .bind (hd _) fun _ => .pure _
  · exact .ite (.bind (hd _) fun _ => .ite (.pure _) (.ite (.pure _) (.pure _))) (.pure _)

theorem minmax_reads (d : TecData) (N : Nat) : Reads (d.minmax N) := by
  unfold TecData.minmax
  exact .ite (.throw _) (.bind (get_minmax_reads _ _ (loadElem_reads _ _) _) fun _ => .pure _)

/-! ## All variables of a zone -/

/-- a change of the entries `n, …, n + k - 1` -/
def editRange {α : Type} (n k : Nat) (f : Nat → α → α) (D : List α) : List α :=
  D.mapIdx fun i d => if n ≤ i ∧ i < n + k then f i d else d

theorem editRange_length {α : Type} (n k : Nat) (f : Nat → α → α) (D : List α) : (editRange n k f D).length = D.length := by
  simp [editRange]

theorem editRange_get {α : Type} (n k : Nat) (f : Nat → α → α) (D : List α) (i : Nat) :
    (editRange n k f D)[i]? = D[i]?.map fun d => if n ≤ i ∧ i < n + k then f i d else d := by
  simp [editRange]

theorem editRange_zero {α : Type} (n : Nat) (f : Nat → α → α) (D : List α) : editRange n 0 f D = D := by
  apply List.ext_getElem?
  intro i
  rw [editRange_get]
  cases D[i]? with
  | none => rfl
  | some d => rw [Option.map_some, if_neg (by omega)]

theorem editRange_succ {α : Type} (n k : Nat) (f : Nat → α → α) (D : List α) :
    editRange (n + 1) k f (D.modify n (f n)) = editRange n (k + 1) f D := by
  apply List.ext_getElem?
  intro i
  rw [editRange_get, editRange_get, List.getElem?_modify]
  cases D[i]? with
  | none => rfl
  | some d =>
    by_cases h : n = i
    · subst h; simp
    · simp only [Option.map_some, if_neg h, Option.map_eq_map]
      by_cases h2 : n + 1 ≤ i ∧ i < n + 1 + k
      · rw [if_pos h2, if_pos (by omega)]
      · rw [if_neg h2, if_neg (by omega)]

theorem editRange_congr {α : Type} {n k : Nat} {f g : Nat → α → α} (h : ∀ i, n ≤ i → i < n + k → f i = g i) (D : List α) :
    editRange n k f D = editRange n k g D := by
  unfold editRange
  congr 1; funext i d
  by_cases c : n ≤ i ∧ i < n + k
  · rw [if_pos c, if_pos c, h i c.1 c.2]
  · rw [if_neg c, if_neg c]

/-- the bytes of a minimum and a maximum -/
def mmBytes (mm : F64 × F64) : Str := leBytes 8 mm.1.toNat ++ leBytes 8 mm.2.toNat

def DataLog.withMM (mm : F64 × F64) (l : DataLog) : DataLog := { l with min := some mm.1, max := some mm.2 }
def DataLog.withPt (p : Int) (l : DataLog) : DataLog := { l with file_pt := some p }

theorem minMax_all (l : List TecData) : ∀ n s s', eachIdx (fun i d => Zone.writeMinMax i d) n l s = .ok () s' →
    ∃ mm : Nat → F64 × F64,
      ZStep s s' ((List.range' n l.length).flatMap fun i => mmBytes (mm i)) (editRange n l.length (fun i => DataLog.withMM (mm i)) s.l.Data) ∧
      (∀ (i : Nat) (d : TecData), l[i]? = some d → ∃ p, s.z.realProd = .ok p ∧ d.minmax (toU64 p) s.h = .ok (mm (n + i)) s.h) := by
  induction l with
  | nil =>
    intro n s s' h
    cases h
    refine ⟨fun _ => (0, 0), ?_, ?_⟩
    · have := ZStep.refl s
      simpa [editRange_zero] using this
    · intro i d hd; simp at hd
  | cons d l ih =>
    intro n s s' h
    obtain ⟨_, s1, h1, h⟩ := M.bind_inv (m := Zone.writeMinMax n d) h
    obtain ⟨m0, p, hp, hm, hi, e⟩ := minMax_inv h1
    have hh : s1.h = s.h := ((minmax_reads d _) _).1 _ _ hm
    rw [hh] at hm
    have st : ZStep s s1 (mmBytes m0) (s.l.Data.modify n (DataLog.withMM m0)) := by
      have e1 := congrArg ZSt.z e
      have e2 := congrArg ZSt.of e
      have e3 := congrArg ZSt.l e
      simp only at e1 e2 e3
      refine ⟨hh, e1, e2, ?_⟩
      rw [e3]; rfl
    obtain ⟨mm, st', hmm⟩ := ih (n + 1) s1 s' h
    refine ⟨fun i => if i = n then m0 else mm i, ?_, ?_⟩
    · have := st.trans st'
      rw [st.data] at this
      convert this using 1
      · rw [List.length_cons, List.range'_succ, List.flatMap_cons]
        simp only [if_true]
        congr 1
        rw [List.flatMap_def, List.flatMap_def]
        congr 1
        apply List.map_congr_left
        intro i hi
        rw [List.mem_range'_1] at hi
        simp only [if_neg (show i ≠ n by omega)]
      · rw [List.length_cons, ← editRange_succ]
        simp only [if_true]
        apply editRange_congr
        intro i h1 _
        simp only [if_neg (show i ≠ n by omega)]
    · intro i d' hd
      cases i with
      | zero =>
        cases hd
        refine ⟨p, hp, ?_⟩
        simp only [Nat.add_zero, if_true]; exact hm
      | succ i =>
        obtain ⟨p', hp', hm'⟩ := hmm i d' (by simpa using hd)
        rw [st.z] at hp'
        rw [hh] at hm'
        refine ⟨p', hp', ?_⟩
        simp only [if_neg (show n + (i + 1) ≠ n by omega)]
        rw [show n + (i + 1) = n + 1 + i by omega]; exact hm'

theorem vars_all {echo : Bool} {vars : List Str} (blk : Nat → Str) {p : Int} (l : List TecData) : ∀ n s s',
    eachIdx (fun i d => Zone.writeVar echo vars i d) n l s = .ok () s' → s.z.realProd = .ok p →
    (∀ i d, l[i]? = some d → Holds s.h d.buf ((blk (n + i)).map some) ∧ (blk (n + i)).length = d.size * toU64 p) →
    ZStep s s' ((List.range' n l.length).flatMap blk)
      (editRange n l.length (fun i => DataLog.withPt ((s.of.length + ((List.range' n (i - n)).flatMap blk).length : Nat) : Int)) s.l.Data) := by
  induction l with
  | nil =>
    intro n s s' h _ _
    cases h
    simpa [editRange_zero] using ZStep.refl s
  | cons d l ih =>
    intro n s s' h hp hb
    obtain ⟨_, s1, h1, h⟩ := M.bind_inv (m := Zone.writeVar echo vars n d) h
    obtain ⟨b1, b2⟩ := hb 0 d rfl
    rw [Nat.add_zero] at b1 b2
    obtain ⟨hi, st⟩ := writeVar_inv hp b1 b2 h1
    have st' := ih (n + 1) s1 s' h (by rw [st.z]; exact hp) (by
      intro i d' hd
      rw [st.h, show n + 1 + i = n + (i + 1) by omega]
      exact hb (i + 1) d' (by simpa using hd))
    have := st.trans st'
    rw [st.data] at this
    convert this using 1
    · rw [List.length_cons, List.range'_succ, List.flatMap_cons]
    · rw [List.length_cons, ← editRange_succ]
      have : (fun l : DataLog => { l with file_pt := some (s.of.length : Int) }) =
          DataLog.withPt ((s.of.length + ((List.range' n (n - n)).flatMap blk).length : Nat) : Int) := by
        rw [Nat.sub_self, List.range'_zero, List.flatMap_nil, List.length_nil, Nat.add_zero]; rfl
      rw [← this]
      apply editRange_congr
      intro i h1 _
      rw [st.of, List.length_append, show i - n = (i - (n + 1)) + 1 by omega, List.range'_succ, List.flatMap_cons, List.length_append]
      rw [Nat.add_assoc]

/-! ## The whole function -/

theorem zbuf_run {s : ZSt} {m : M (St Byte Zone) Unit} {t : St Byte Zone} (h : m ⟨s.h, s.z⟩ = .ok () t) :
    ZSt.buf m s = .ok () { s with h := t.h, z := t.o } := by
  unfold ZSt.buf; rw [h]

/-- what the data section of a zone starts with -/
def Zone.dataHead (z : Zone) : Str :=
  leBytes 4 f299 ++ z.Data.flatMap (fun d => int4 d.type.code) ++ int4 0 ++ int4 0 ++ int4 (-1)

theorem each_zfile {α : Type} (f : α → M Str Unit) (g : α → Str) (h : ∀ a s, f a s = .ok () (s ++ g a)) (l : List α) :
    ∀ s : ZSt, each l (fun a => ZSt.file (f a)) s = .ok () { s with of := s.of ++ l.flatMap g } := by
  induction l with
  | nil => intro s; show Res.ok () s = _; rw [List.flatMap_nil, List.append_nil]
  | cons a l ih => intro s; rw [each, M.bind_ok (zfile_run (h a s.of)), ih, List.flatMap_cons]; simp only [List.append_assoc]

/-- the bytes selected of variable `i` -/
def Zone.block (z : Zone) (size : Nat) (data : Str) : Str :=
  selectedBytes (z.sel 0) (z.sel 1) (z.sel 2) size data

theorem selectedBytes_map {α β : Type} (g : α → β) (x y z : DimSel) (size : Nat) (l : List α) :
    selectedBytes x y z size (l.map g) = (selectedBytes x y z size l).map g := by
  unfold selectedBytes item
  rw [List.map_flatMap]
  congr 1; funext p
  rw [← List.map_drop, ← List.map_take]

/-- number of points of a zone in the file -/
def Zone.points (z : Zone) : Nat := (selection (z.sel 0) (z.sel 1) (z.sel 2)).length

theorem block_length {z : Zone} (f : z.Fits) {size : Nat} {data : Str} (hl : data.length = z.total size) :
    (z.block size data).length = z.points * size := by
  unfold Zone.block selectedBytes Zone.points
  rw [List.length_flatMap]
  have : ∀ p ∈ selection (z.sel 0) (z.sel 1) (z.sel 2), (item size data (place (z.sel 0) (z.sel 1) p)).length = size := by
    rintro ⟨i, j, k⟩ hp
    rw [mem_selection] at hp
    obtain ⟨b0, b1⟩ := place_bound f.geo hp.1 hp.2.1 hp.2.2
    have : size * (place (z.sel 0) (z.sel 1) (i, j, k)).toNat + size ≤ z.total size := item_bound b0 b1
    unfold item
    rw [List.length_take, List.length_drop, hl]
    omega
  rw [List.map_congr_left this, List.map_const', List.sum_replicate_nat]

theorem realProd_fits {z : Zone} (f : z.Fits) : z.gathered.realProd = .ok (z.points : Int) ∧ 0 < z.points ∧ z.points ≤ 2147483647 := by
  obtain ⟨h1, h2, h3⟩ := f.geo.realProd f.copyable.points
  have e : (z.points : Int) = (z.sel 0).count * (z.sel 1).count * (z.sel 2).count := by
    unfold Zone.points
    rw [length_selection z f.sane]
    have p0 := Sane.count_pos (f.sane 0 (by decide)) (f.acc 0 (by decide))
    have p1 := Sane.count_pos (f.sane 1 (by decide)) (f.acc 1 (by decide))
    have p2 := Sane.count_pos (f.sane 2 (by decide)) (f.acc 2 (by decide))
    push_cast
    rw [Int.toNat_of_nonneg (by omega), Int.toNat_of_nonneg (by omega), Int.toNat_of_nonneg (by omega)]
  have p0 := Sane.count_pos (f.sane 0 (by decide)) (f.acc 0 (by decide))
  have p1 := Sane.count_pos (f.sane 1 (by decide)) (f.acc 1 (by decide))
  have p2 := Sane.count_pos (f.sane 2 (by decide)) (f.acc 2 (by decide))
  refine ⟨by rw [e]; exact h1, ?_, ?_⟩
  · have : 0 < (z.sel 0).count * (z.sel 1).count * (z.sel 2).count := Int.mul_pos (Int.mul_pos p0 p1) p2
    omega
  · have := f.prod
    have h3' : (z.sel 0).count * (z.sel 1).count * (z.sel 2).count ≤ z.Max.x * z.Max.y * z.Max.z := h3
    omega

/-- the bytes of variable `i` in the file -/
def Zone.blockAt (z : Zone) (data : Nat → Str) (i : Nat) : Str :=
  match z.Data[i]? with
  | some d => z.block d.size (data i)
  | none => []

/-- the minimum and the maximum of a variable without NaN -/
def MinMaxOf (d : TecData) (N : Nat) (b : Str) (mm : F64 × F64) : Prop :=
  d.type ≠ .null → d.size = d.type.bytes → (∀ i < N, (d.type.key (elem d.type.bytes b i)).isSome) →
  ∃ m, mm = (d.type.toF64 m.1, d.type.toF64 m.2) ∧
    IsMinMax (fun n => (d.type.key n).getD 0) (elem d.type.bytes b) N m

/-- an entry of the log after the zone was written -/
def DataLog.filled (mm : F64 × F64) (pt : Nat) (l : DataLog) : DataLog :=
  { l with
    file_pt := some (pt : Int)
    min := some mm.1
    max := some mm.2 }

/-- length of the data section before the variables -/
def Zone.preLen (z : Zone) : Nat := z.dataHead.length + 16 * z.Data.length

structure Zone.Written (z : Zone) (data : Nat → Str) (s s' : ZSt) : Prop where
  blk : s'.h.blk = s.h.blk
  mem : s'.h.mem = s.h.mem
  next : s.h.next ≤ s'.h.next
  zone : ∃ D, s'.z = { z.gathered with
    Data := D
    needreal := false } ∧ D.map TecData.core = z.Data.map TecData.core
  out : ∃ mm : Nat → F64 × F64,
    (∀ i d, z.Data[i]? = some d → MinMaxOf d z.points (z.block d.size (data i)) (mm i)) ∧
    s'.of = s.of ++ (z.dataHead ++ (List.range z.Data.length).flatMap (fun i => mmBytes (mm i)) ++
      (List.range z.Data.length).flatMap (z.blockAt data)) ∧
    s'.l = { s.l with
      Data := editRange 0 z.Data.length (fun i => DataLog.filled (mm i)
        (s.of.length + z.preLen + ((List.range i).flatMap (z.blockAt data)).length)) s.l.Data
      Echo_Text := s'.l.Echo_Text
      Size := some (s'.of.length - s.of.length) }

theorem mm_length (mm : Nat → F64 × F64) (n : Nat) : ((List.range n).flatMap fun i => mmBytes (mm i)).length = 16 * n := by
  rw [List.length_flatMap]
  have : ∀ i ∈ List.range n, (mmBytes (mm i)).length = 16 := by
    intro i _; unfold mmBytes; rw [List.length_append, leBytes_length, leBytes_length]
  rw [List.map_congr_left this, List.map_const', List.sum_replicate_nat, List.length_range, Nat.mul_comm]

theorem editRange_editRange {α : Type} (n k : Nat) (f g : Nat → α → α) (D : List α) :
    editRange n k g (editRange n k f D) = editRange n k (fun i => g i ∘ f i) D := by
  apply List.ext_getElem?
  intro i
  rw [editRange_get, editRange_get, editRange_get, Option.map_map]
  congr 1; funext d
  by_cases c : n ≤ i ∧ i < n + k
  · simp only [Function.comp, if_pos c]
  · simp only [Function.comp, if_neg c]

theorem Zone.write_plt_data_inv {z : Zone} (f : z.Fits) {le : F64 → Str} {vars : List Str} {echo : Bool} {s s' : ZSt} (data : Nat → Str)
    (hz : s.z = z.gathered) (fr : Fresh s.h) (hv : ∀ i d, z.Data[i]? = some d → z.VarOk s.h d ((data i).map some))
    (r : Zone.write_plt_data le vars echo s = .ok () s') : z.Written data s s' := by
  obtain ⟨rp, rp0, rp1⟩ := realProd_fits f
  have hu : toU64 (z.points : Int) = z.points := by rw [toU64_ok (by omega) (by omega)]; omega
  unfold Zone.write_plt_data at r
  rw [M.get_bind_run, M.bind_ok (zfile_run (W_FLOAT32_run _ _)),
    M.bind_ok (each_zfile (fun j : TecData => W_INT32 j.type.code) (fun j => int4 j.type.code) (fun j s => W_INT32_run _ s) _ _),
    M.bind_ok (zfile_run (W_INT32_run _ _)), M.bind_ok (zfile_run (W_INT32_run _ _)), M.bind_ok (zfile_run (W_INT32_run _ _))] at r
  have e1 : s.of ++ leBytes 4 f299 ++ s.z.Data.flatMap (fun j => int4 j.type.code) ++ int4 0 ++ int4 0 ++ int4 (-1) = s.of ++ z.dataHead := by
    rw [hz]; unfold Zone.dataHead; simp only [List.append_assoc]; rfl
  simp only [e1] at r
  rcases Zone.make_buf_ok f fr (fun i => (data i).map some) hv with ⟨-, D, h1, nr, mb, B⟩ | ⟨-, -, ex⟩
  · rw [M.bind_ok (zbuf_run (t := ⟨h1, { z.gathered with Data := D, needreal := nr }⟩) (by rw [hz]; exact mb)), M.get_bind_run] at r
    obtain ⟨_, s3, r3, r'⟩ := M.bind_inv r
    clear r
    obtain ⟨mm, st3, hmm⟩ := minMax_all D 0 _ s3 r3
    obtain ⟨_, s4, r4, r⟩ := M.bind_inv r'
    clear r'
    have st4 := quiet_echoInfo le echo _ _ _ r4
    obtain ⟨_, s5, r5, r'⟩ := M.bind_inv r
    clear r
    have st5 := (Quiet.ifB (.bind (.print _ _) fun _ => .push _) : Quiet (ifB (test z.gathered.Echo_Mode 2) (do
      ZSt.print echo (lit "     write variables:")
      ZSt.push (lit "     write variables:")))) _ _ _ r5
    obtain ⟨_, s6, r6, r⟩ := M.bind_inv r'
    clear r'
    have st35 := (st3.trans st4).trans st5
    rw [st4.data, st3.data] at st35
    have hD : ∀ i d, D[i]? = some d → ∃ d0, z.Data[i]? = some d0 ∧ d = { d0 with buf := d.buf } ∧
        Holds h1 d.buf ((z.blockAt data i).map some) ∧ (z.blockAt data i).length = z.points * d.size := by
      intro i d hd
      have hi : i < z.Data.length := by rw [← B.len]; exact (List.getElem?_eq_some_iff.mp hd).1
      have h0 := List.getElem?_eq_getElem hi
      obtain ⟨q, hq, hH⟩ := B.holds i _ h0
      rw [hd] at hq; cases hq
      refine ⟨_, h0, rfl, ?_, ?_⟩
      · unfold Zone.blockAt; rw [h0]
        simp only
        unfold Zone.block; rw [← selectedBytes_map]; exact hH
      · unfold Zone.blockAt; rw [h0]
        have := (hv i _ h0).len
        rw [List.length_map] at this
        exact block_length f this
    have hz5 : s5.z.realProd = .ok (z.points : Int) := by rw [st35.z]; exact rp
    have st6 := vars_all (z.blockAt data) D 0 _ s6 r6 hz5 (by
      intro i d hd
      obtain ⟨-, -, -, hh, hl⟩ := hD i d hd
      rw [st35.h, Nat.zero_add]
      exact ⟨hh, by rw [hl, hu, Nat.mul_comm]⟩)
    obtain ⟨_, s7, r7, r'⟩ := M.bind_inv r
    clear r
    have st7 := (Quiet.ifB (.print _ _) : Quiet (ifB (test z.gathered.Echo_Mode 2) (ZSt.print echo (lit "\n")))) _ _ _ r7
    have st37 := (st35.trans st6).trans st7
    rw [st6.data, st35.data] at st37
    obtain ⟨_, s8, r8, r⟩ := M.bind_inv r'
    clear r'
    obtain ⟨h2, D', rb, hb, hn, hm, hc⟩ := Zone.realise_ok fr B s7.z (by rw [st37.z]) (by rw [st37.z])
    rw [zbuf_run (t := ⟨h2, { s7.z with Data := D', needreal := false }⟩) (by rw [st37.h]; exact rb)] at r8
    cases r8
    rw [M.get_bind_run, M.modify_bind_run] at r
    have st9 := (Quiet.ifB (.bind (.liftM _) fun _ => .bind (.print _ _) fun _ => .push _) : Quiet _) _ _ _ r
    have Dl : D.length = z.Data.length := B.len
    have eof : s'.of = s.of ++ (z.dataHead ++ (List.range z.Data.length).flatMap (fun i => mmBytes (mm i)) ++
        (List.range z.Data.length).flatMap (z.blockAt data)) := by
      have := st9.of
      simp only [st37.of, Dl, ← List.range_eq_range', List.append_nil, List.append_assoc] at this
      rw [this]; simp only [List.append_assoc]
    refine ⟨?_, ?_, ?_, ⟨D', ?_, ?_⟩, mm, ?_, eof, ?_⟩
    · rw [st9.h]; exact hb
    · rw [st9.h]; exact hm
    · rw [st9.h]; show s.h.next ≤ h2.next; rw [hn]; exact B.kept.next
    · rw [st9.z]; simp only [st37.z]
    · rw [hc]
      apply List.ext_getElem?
      intro i
      rw [List.getElem?_map, List.getElem?_map]
      cases hd : D[i]? with
      | none =>
        have : z.Data[i]? = none := by
          rw [List.getElem?_eq_none_iff] at hd ⊢
          rw [← Dl]; exact hd
        rw [this]
      | some d =>
        obtain ⟨d0, h0, e0, -⟩ := hD i d hd
        rw [h0, Option.map_some, Option.map_some, e0]; rfl
    · intro i d0 h0 ht hs hk
      have hi : i < D.length := by rw [Dl]; exact (List.getElem?_eq_some_iff.mp h0).1
      obtain ⟨d1, h1', e1', hh, hl⟩ := hD i _ (List.getElem?_eq_getElem hi)
      rw [h0] at h1'; cases h1'
      obtain ⟨p, hp, hm'⟩ := hmm i _ (List.getElem?_eq_getElem hi)
      rw [Nat.zero_add] at hm'
      have hp' : p = z.points := by
        have : z.gathered.realProd = .ok p := hp
        rw [rp] at this; cases this; rfl
      subst hp'
      rw [hu] at hm'
      have hbk : z.blockAt data i = z.block d0.size (data i) := by unfold Zone.blockAt; rw [h0]
      rw [hbk] at hh hl
      generalize hdd : D[i] = d at *
      have t1 : d.type = d0.type := by rw [e1']
      have t2 : d.size = d0.size := by rw [e1']
      obtain ⟨m, q1, q2⟩ := TecData.minmax_ok (d := d) (N := z.points) (by rw [t1]; exact ht) hh
        (by rw [hl, t2, t1, hs]) rp0 (by rw [t1]; exact hk)
      have hm'' : d.minmax z.points h1 = .ok (mm i) h1 := hm'
      rw [q1] at hm''
      rw [Res.ok.injEq] at hm''
      rw [t1] at q2 hm''
      exact ⟨m, hm''.1.symm, q2⟩
    · have e9 := st9.l
      obtain ⟨T, eT⟩ : ∃ T, s7.l = { s.l with
          Data := editRange 0 D.length (fun i => DataLog.withPt ((s5.of.length + ((List.range' 0 (i - 0)).flatMap (z.blockAt data)).length : Nat) : Int))
            (editRange 0 D.length (fun i => DataLog.withMM (mm i)) s.l.Data)
          Echo_Text := T } := ⟨_, st37.l⟩
      have e2 : editRange 0 D.length (fun i => DataLog.withPt ((s5.of.length + ((List.range' 0 (i - 0)).flatMap (z.blockAt data)).length : Nat) : Int))
            (editRange 0 D.length (fun i => DataLog.withMM (mm i)) s.l.Data) =
          editRange 0 z.Data.length (fun i => DataLog.filled (mm i)
            (s.of.length + z.preLen + ((List.range i).flatMap (z.blockAt data)).length)) s.l.Data := by
        have : s5.of.length = s.of.length + z.preLen := by
          rw [st35.of]
          simp only [List.append_nil, Dl, ← List.range_eq_range', List.length_append, mm_length]
          unfold Zone.preLen; omega
        rw [editRange_editRange, Dl, this]
        apply editRange_congr
        intro i _ _
        rw [Nat.sub_zero, ← List.range_eq_range']
        rfl
      rw [e2] at eT
      generalize hE : s'.l.Echo_Text = E at *
      have hS : s'.of = s7.of := by rw [st9.of]; simp
      rw [e9, hS]
      simp only [eT]
  · obtain ⟨D, h', mb, -⟩ := ex
    obtain ⟨_, s3, r3, -⟩ := M.bind_inv r
    unfold ZSt.buf at r3
    simp only [hz, mb] at r3
    cases r3
end Verif.Tec
