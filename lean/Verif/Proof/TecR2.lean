import Verif.Proof.TecR1
import Verif.Proof.TecW5
/-!
# Writing a zone: it succeeds, and what it reports
-/
namespace Verif.Tec
open Spec

theorem get_minmax_total {σ T : Type} (gt lt : T → T → Bool) (data : Nat → M σ T) (v : Nat → T) {N : Nat} (hN : 0 < N) {s : σ}
    (hd : ∀ i < N, data i s = .ok (v i) s) : ∃ mm, get_minmax gt lt data N s = .ok mm s := by
  unfold get_minmax
  rw [M.bind_ok (hd 0 hN), M.bind_ok (hd 0 hN)]
  have hb : ∀ n, 2 * n ≤ N → ∃ a, loopZ (minmaxStep gt lt data) n 0 (v 0, v 0) s = .ok a s := by
    intro n hn
    obtain ⟨a, h, -⟩ := loopZ_inv (minmaxStep gt lt data) (fun _ _ => True) s n 0 (v 0, v 0) (by
      intro j _ hj a _
      unfold minmaxStep
      rw [M.bind_ok (hd (2 * j) (by omega)), M.bind_ok (hd (2 * j + 1) (by omega))]
      exact ⟨_, rfl, trivial⟩) trivial
    exact ⟨a, h⟩
  by_cases c : N % 2 ≠ 0
  · simp only [if_pos c]
    obtain ⟨a, ha⟩ := hb ((N - 1) / 2) (by omega)
    rw [M.bind_ok ha, M.bind_ok (hd (N - 1) (by omega))]
    split
    · exact ⟨_, rfl⟩
    · split
      · exact ⟨_, rfl⟩
      · exact ⟨_, rfl⟩
  · simp only [if_neg c]
    obtain ⟨a, ha⟩ := hb (N / 2) (by omega)
    rw [M.bind_ok ha]
    exact ⟨_, rfl⟩

theorem Holds.take {h : Heap Byte} {p : Ptr} {l : Str} (H : Holds h p (l.map some)) (n : Nat) (hn : n ≤ l.length) :
    Holds h p ((l.take n).map some) := by
  obtain ⟨b, o, len, c, rfl, hb, hle, hw⟩ := H
  rw [List.length_map] at hle hw
  refine ⟨b, o, len, c, rfl, hb, ?_, ?_⟩
  · rw [List.length_map, List.length_take]; omega
  · rw [List.length_map, List.length_take, Nat.min_eq_left hn]
    have := window_slice (k := 0) (w := n) hw (by omega)
    simpa using this

theorem TecData.minmax_total {h : Heap Byte} {d : TecData} {l : Str} {N : Nat} (ht : d.type ≠ .null) (H : Holds h d.buf (l.map some))
    (hl : N * d.type.bytes ≤ l.length) (hN : 0 < N) : ∃ mm, d.minmax N h = .ok mm h := by
  unfold TecData.minmax
  rw [if_neg ht]
  have H' := H.take _ hl
  obtain ⟨mm, e⟩ := get_minmax_total (fun a b => d.type.lt b a) d.type.lt (loadElem d.type d.buf) _ hN
    (fun i hi => loadElem_ok (N := N) H' (by rw [List.length_take, Nat.min_eq_left hl]) hi)
  rw [M.bind_ok e]
  exact ⟨_, rfl⟩

/-- one minimum and maximum -/
theorem minMax_ok {i : Nat} {d : TecData} {s : ZSt} {p : Int} {mm : F64 × F64} (hp : s.z.realProd = .ok p)
    (hm : d.minmax (toU64 p) s.h = .ok mm s.h) (hi : i < s.l.Data.length) : ∃ s', Zone.writeMinMax i d s = .ok () s' := by
  unfold Zone.writeMinMax
  have e : ZSt.heap (d.minmax (toU64 p)) s = .ok mm s := by unfold ZSt.heap; rw [hm]
  rw [M.get_bind_run, hp, M.liftM_eq, M.lift_ok, pure_bind, M.bind_ok e, M.bind_ok (zfile_run (W_FLOAT64_run _ _)), M.bind_ok (zfile_run (W_FLOAT64_run _ _))]
  have e1 : ∀ f (t : ZSt), i < t.l.Data.length → ZSt.modData i f t = .ok () { t with l := { t.l with Data := t.l.Data.modify i f } } := by
    intro f t ht; unfold ZSt.modData; rw [if_pos ht]
  rw [M.bind_ok (e1 _ _ (by exact hi)), e1 _ _ (by simpa using hi)]
  exact ⟨_, rfl⟩

theorem minMax_go (l : List TecData) : ∀ n (s : ZSt), (∀ (i : Nat) (d : TecData), l[i]? = some d → ∃ p mm, s.z.realProd = .ok p ∧ d.minmax (toU64 p) s.h = .ok mm s.h) →
    n + l.length ≤ s.l.Data.length → ∃ s', eachIdx (fun i d => Zone.writeMinMax i d) n l s = .ok () s' ∧ s'.out = s.out ∧ s'.l.Echo_Text = s.l.Echo_Text ∧ s'.of.length = s.of.length + 16 * l.length := by
  induction l with
  | nil => intro n s _ _; exact ⟨s, rfl, rfl, rfl, rfl⟩
  | cons d l ih =>
    intro n s h hl
    rw [List.length_cons] at hl
    obtain ⟨p, mm, hp, hm⟩ := h 0 d rfl
    obtain ⟨s1, e1⟩ := minMax_ok hp hm (i := n) (by omega)
    obtain ⟨m, q, hq, hqm, -, eq⟩ := minMax_inv e1
    have hh : s1.h = s.h := ((minmax_reads d _) _).1 _ _ hqm
    have ez : s1.z = s.z := (congrArg ZSt.z eq :)
    have eo : s1.out = s.out := (congrArg ZSt.out eq :)
    have el := congrArg ZSt.l eq
    simp only at el
    have ef : s1.of = s.of ++ (leBytes 8 m.1.toNat ++ leBytes 8 m.2.toNat) := (congrArg ZSt.of eq :)
    obtain ⟨s', e', o', t', f'⟩ := ih (n + 1) s1 (by
      intro i d' hd
      rw [ez, hh]
      exact h (i + 1) d' (by simpa using hd)) (by rw [el]; simp only [List.length_modify]; omega)
    refine ⟨s', ?_, o'.trans eo, t'.trans (by rw [el]), by rw [f', ef, List.length_append, List.length_append, leBytes_length, leBytes_length, List.length_cons]; omega⟩
    show (Zone.writeMinMax n d >>= fun _ => eachIdx (fun i d => Zone.writeMinMax i d) (n + 1) l) s = _
    rw [M.bind_ok e1, e']

/-- the state of the log changed by `writeVar` -/
def ZSt.put (s : ZSt) (of : Str) (D : List DataLog) : ZSt := { s with of := of, l := { s.l with Data := D } }

theorem writeVar_on {echo : Bool} {vars : List Str} {i : Nat} {d : TecData} {s : ZSt} {p : Int} {b v : Str} {o : Str} {T : List Str} {x : Str}
    (hp : s.z.realProd = .ok p) (hb : Holds s.h d.buf (b.map some)) (hl : b.length = d.size * toU64 p) (hi : i < s.l.Data.length)
    (hv : vars[i]? = some v) (he : test s.z.Echo_Mode 2 = true) :
    ∃ of D, of.length = s.of.length + b.length ∧ D.length = s.l.Data.length ∧ Zone.writeVar echo vars i d (s.rep o (T ++ [x])) =
      .ok () ((s.put of D).rep (o ++ pr echo (lit " <" ++ cstr v ++ lit ">")) (T ++ [x ++ (lit " <" ++ v ++ lit ">")])) := by
  unfold Zone.writeVar
  rw [M.get_bind_run]
  have e1 : ∀ f, ZSt.modData i f (s.rep o (T ++ [x])) = .ok () ((s.put s.of (s.l.Data.modify i f)).rep o (T ++ [x])) := by
    intro f; unfold ZSt.modData; rw [if_pos (show i < (s.rep o (T ++ [x])).l.Data.length from hi)]; rfl
  rw [M.bind_ok (e1 _), show (s.rep o (T ++ [x])).z = s.z from rfl, hp, M.liftM_eq, M.lift_ok, pure_bind]
  have hr : ∀ D, ZSt.heap (loadBytes (d.size * toU64 p) d.buf) ((s.put s.of D).rep o (T ++ [x])) = .ok b ((s.put s.of D).rep o (T ++ [x])) := by
    intro D
    unfold ZSt.heap
    rw [← hl, show ((s.put s.of D).rep o (T ++ [x])).h = s.h from rfl, loadBytes_holds hb]
    rfl
  rw [M.bind_ok (hr _), M.bind_ok (zfile_run (emit_run _ _)), he, hv]
  refine ⟨s.of ++ b, s.l.Data.modify i fun l => { l with file_pt := some (s.of.length : Int) }, List.length_append, by simp, ?_⟩
  ·
    show (ZSt.print echo (lit " <" ++ cstr v ++ lit ">") >>= fun _ => ZSt.append (lit " <" ++ v ++ lit ">"))
      ((s.put (s.of ++ b) (s.l.Data.modify i fun l => { l with file_pt := some (s.of.length : Int) })).rep o (T ++ [x])) = _
    rw [M.bind_ok (zprint_run ..), zappend_run]

theorem writeVar_off {echo : Bool} {vars : List Str} {i : Nat} {d : TecData} {s : ZSt} {p : Int} {b : Str} {o : Str} {T : List Str}
    (hp : s.z.realProd = .ok p) (hb : Holds s.h d.buf (b.map some)) (hl : b.length = d.size * toU64 p) (hi : i < s.l.Data.length)
    (he : test s.z.Echo_Mode 2 = false) :
    ∃ of D, of.length = s.of.length + b.length ∧ D.length = s.l.Data.length ∧ Zone.writeVar echo vars i d (s.rep o T) = .ok () ((s.put of D).rep o T) := by
  unfold Zone.writeVar
  rw [M.get_bind_run]
  have e1 : ∀ f, ZSt.modData i f (s.rep o T) = .ok () ((s.put s.of (s.l.Data.modify i f)).rep o T) := by
    intro f; unfold ZSt.modData; rw [if_pos (show i < (s.rep o T).l.Data.length from hi)]; rfl
  rw [M.bind_ok (e1 _), show (s.rep o T).z = s.z from rfl, hp, M.liftM_eq, M.lift_ok, pure_bind]
  have hr : ∀ D, ZSt.heap (loadBytes (d.size * toU64 p) d.buf) ((s.put s.of D).rep o T) = .ok b ((s.put s.of D).rep o T) := by
    intro D
    unfold ZSt.heap
    rw [← hl, show ((s.put s.of D).rep o T).h = s.h from rfl, loadBytes_holds hb]
    rfl
  rw [M.bind_ok (hr _), M.bind_ok (zfile_run (emit_run _ _)), he]
  refine ⟨s.of ++ b, s.l.Data.modify i fun l => { l with file_pt := some (s.of.length : Int) }, List.length_append, by simp, ?_⟩
  ·
    show Res.ok () ((s.put (s.of ++ b) (s.l.Data.modify i fun l => { l with file_pt := some (s.of.length : Int) })).rep o T) = _
    rfl

theorem vars_on {echo : Bool} {vars : List Str} {p : Int} (blk : Nat → Str) (l : List TecData) : ∀ n (s : ZSt) (o : Str) (T : List Str) (x : Str),
    s.z.realProd = .ok p → (∀ i d, l[i]? = some d → Holds s.h d.buf ((blk (n + i)).map some) ∧ (blk (n + i)).length = d.size * toU64 p) →
    n + l.length ≤ s.l.Data.length → vars.length = n + l.length → test s.z.Echo_Mode 2 = true →
    ∃ of D, of.length = s.of.length + ((List.range' n l.length).flatMap blk).length ∧ D.length = s.l.Data.length ∧ eachIdx (fun i d => Zone.writeVar echo vars i d) n l (s.rep o (T ++ [x])) =
      .ok () ((s.put of D).rep (o ++ pr echo (names ((vars.drop n).map cstr))) (T ++ [x ++ names (vars.drop n)])) := by
  induction l with
  | nil =>
    intro n s o T x _ _ _ h4 _
    rw [List.length_nil] at h4
    refine ⟨s.of, s.l.Data, rfl, rfl, ?_⟩
    show Res.ok () _ = _
    rw [List.drop_eq_nil_of_le (by omega)]
    simp [names, pr_nil]; rfl
  | cons d l ih =>
    intro n s o T x h1 h2 h3 h4 h5
    rw [List.length_cons] at h3 h4
    obtain ⟨b1, b2⟩ := h2 0 d rfl
    rw [Nat.add_zero] at b1 b2
    have hn : n < vars.length := by omega
    obtain ⟨of, D, hF, hD, e⟩ := writeVar_on (echo := echo) (vars := vars) (o := o) (T := T) (x := x) h1 b1 b2 (by omega) (List.getElem?_eq_getElem hn) h5
    obtain ⟨of', D', hF', hD', e'⟩ := ih (n + 1) (s.put of D) (o ++ pr echo (lit " <" ++ cstr vars[n] ++ lit ">")) T (x ++ (lit " <" ++ vars[n] ++ lit ">")) h1 (by
      intro i d' hd
      rw [show n + 1 + i = n + (i + 1) by omega]
      exact h2 (i + 1) d' (by simpa using hd)) (by show n + 1 + l.length ≤ D.length; omega) (by omega) h5
    refine ⟨of', D', ?_, hD'.trans hD, ?_⟩
    · rw [hF', show (s.put of D).of = of from rfl, hF, List.length_cons, List.range'_succ, List.flatMap_cons, List.length_append]; omega
    show (Zone.writeVar echo vars n d >>= fun _ => eachIdx (fun i d => Zone.writeVar echo vars i d) (n + 1) l) _ = _
    rw [M.bind_ok e, e', List.drop_eq_getElem_cons hn]
    simp only [names, List.map_cons, List.flatMap_cons, List.append_assoc, pr_append]
    rfl

theorem vars_off {echo : Bool} {vars : List Str} {p : Int} (blk : Nat → Str) (l : List TecData) : ∀ n (s : ZSt) (o : Str) (T : List Str),
    s.z.realProd = .ok p → (∀ i d, l[i]? = some d → Holds s.h d.buf ((blk (n + i)).map some) ∧ (blk (n + i)).length = d.size * toU64 p) →
    n + l.length ≤ s.l.Data.length → test s.z.Echo_Mode 2 = false →
    ∃ of D, of.length = s.of.length + ((List.range' n l.length).flatMap blk).length ∧ D.length = s.l.Data.length ∧ eachIdx (fun i d => Zone.writeVar echo vars i d) n l (s.rep o T) = .ok () ((s.put of D).rep o T) := by
  induction l with
  | nil => intro n s o T _ _ _ _; exact ⟨s.of, s.l.Data, rfl, rfl, rfl⟩
  | cons d l ih =>
    intro n s o T h1 h2 h3 h5
    rw [List.length_cons] at h3
    obtain ⟨b1, b2⟩ := h2 0 d rfl
    rw [Nat.add_zero] at b1 b2
    obtain ⟨of, D, hF, hD, e⟩ := writeVar_off (i := n) (echo := echo) (vars := vars) (o := o) (T := T) h1 b1 b2 (by omega) h5
    obtain ⟨of', D', hF', hD', e'⟩ := ih (n + 1) (s.put of D) o T h1 (by
      intro i d' hd
      rw [show n + 1 + i = n + (i + 1) by omega]
      exact h2 (i + 1) d' (by simpa using hd)) (by show n + 1 + l.length ≤ D.length; omega) h5
    refine ⟨of', D', ?_, hD'.trans hD, ?_⟩
    · rw [hF', show (s.put of D).of = of from rfl, hF, List.length_cons, List.range'_succ, List.flatMap_cons, List.length_append]; omega
    show (Zone.writeVar echo vars n d >>= fun _ => eachIdx (fun i d => Zone.writeVar echo vars i d) (n + 1) l) _ = _
    rw [M.bind_ok e, e']; rfl

/-- the line of the variables -/
theorem vars_says {echo : Bool} {vars : List Str} {p : Int} (blk : Nat → Str) (l : List TecData) (s : ZSt) (e : List Bool) (he : s.z.Echo_Mode = e)
    (h1 : s.z.realProd = .ok p) (h2 : ∀ i d, l[i]? = some d → Holds s.h d.buf ((blk i).map some) ∧ (blk i).length = d.size * toU64 p)
    (h3 : l.length ≤ s.l.Data.length) (h4 : vars.length = l.length) {rest : M ZSt Unit} (o : Str) (T : List Str) :
    ∃ of D, of.length = s.of.length + ((List.range l.length).flatMap blk).length ∧ (ifB (test e 2) (do
        ZSt.print echo (lit "     write variables:")
        ZSt.push (lit "     write variables:")) >>= fun _ =>
      eachIdx (fun i d => Zone.writeVar echo vars i d) 0 l >>= fun _ =>
      ifB (test e 2) (ZSt.print echo (lit "\n")) >>= fun _ => rest) (s.rep o T) =
    rest ((s.put of D).rep
      (o ++ pr echo (printed (onFlag e 2 ⟨lit "     write variables:" ++ names (vars.map cstr), lit "     write variables:" ++ names vars⟩)))
      (T ++ keptLines (onFlag e 2 ⟨lit "     write variables:" ++ names (vars.map cstr), lit "     write variables:" ++ names vars⟩))) := by
  subst he
  have h2' : ∀ i d, l[i]? = some d → Holds s.h d.buf ((blk (0 + i)).map some) ∧ (blk (0 + i)).length = d.size * toU64 p := by
    intro i d hd; rw [Nat.zero_add]; exact h2 i d hd
  by_cases c : test s.z.Echo_Mode 2 = true
  · obtain ⟨of, D, hF, -, e⟩ := vars_on (echo := echo) (vars := vars) blk l 0 s (o ++ pr echo (lit "     write variables:")) T (lit "     write variables:")
      h1 h2' (by omega) (by omega) c
    refine ⟨of, D, by rw [hF, List.range_eq_range'], ?_⟩
    rw [c]
    have e0 : ifB true (do
        ZSt.print echo (lit "     write variables:")
        ZSt.push (lit "     write variables:")) (s.rep o T) = .ok () (s.rep (o ++ pr echo (lit "     write variables:")) (T ++ [lit "     write variables:"])) := by
      show (ZSt.print echo (lit "     write variables:") >>= fun _ => ZSt.push (lit "     write variables:")) (s.rep o T) = _
      rw [M.bind_ok (zprint_run ..), zpush_run]
    have c' : s.z.Echo_Mode.getD 2 false = true := c
    rw [M.bind_ok e0, M.bind_ok e, M.bind_ok (show ifB true (ZSt.print echo (lit "\n")) _ = _ from zprint_run ..), List.drop_zero]
    unfold onFlag
    rw [if_pos c', printed_one]
    simp only [List.append_assoc, pr_append]
    rfl
  · have c2 : test s.z.Echo_Mode 2 = false := by simpa using c
    obtain ⟨of, D, hF, -, e⟩ := vars_off (echo := echo) (vars := vars) blk l 0 s o T h1 h2' (by omega) c2
    refine ⟨of, D, by rw [hF, List.range_eq_range'], ?_⟩
    have c' : ¬s.z.Echo_Mode.getD 2 false = true := c
    rw [c2, M.bind_ok (show ifB false _ (s.rep o T) = .ok () (s.rep o T) from rfl), M.bind_ok e,
      M.bind_ok (show ifB false _ ((s.put of D).rep o T) = .ok () ((s.put of D).rep o T) from rfl)]
    unfold onFlag
    rw [if_neg c']
    simp [printed, keptLines, pr_nil]

theorem fmtMB_short {n : Nat} (h : n < 9223372036854775808) : (fmtMB n).length ≤ 30 := by
  unfold fmtMB
  simp only [List.length_append]
  generalize ht : (if 2 * (n * 10 % 1048576) > 1048576 ∨ 2 * (n * 10 % 1048576) = 1048576 ∧ n * 10 / 1048576 % 2 = 1 then
    n * 10 / 1048576 + 1 else n * 10 / 1048576) = t
  have h1 : t ≤ n * 10 / 1048576 + 1 := by rw [← ht]; split <;> omega
  have h2 := decNat_length (k := 19) (n := t / 10) (by decide) (by omega)
  have h3 := decNat_length (k := 1) (n := t % 10) (by decide) (by omega)
  simp only [List.length_cons, List.length_nil]
  omega

theorem nonUnit_bound (f : Nat → Int) : 0 ≤ nonUnit f ∧ nonUnit f ≤ 3 := by
  unfold nonUnit
  have := List.length_filter_le (fun i => decide (f i ≠ 1)) [0, 1, 2]
  simp only [List.length_cons, List.length_nil] at this
  omega

theorem Zone.Fits.ints {z : Zone} (f : z.Fits) : z.Max.Fit ∧ z.Skip.Fit ∧ z.Begin.Fit ∧ z.End.Fit ∧ z.gathered.Real_Max.Fit := by
  have a := fun i hi => f.sane i hi
  have k : ∀ i < 3, InI32 (z.sel i).max ∧ InI32 (z.sel i).skip ∧ InI32 (z.sel i).head ∧ InI32 (z.sel i).tail ∧ InI32 (z.sel i).count := by
    intro i hi
    have s := f.sane i hi
    have c := Sane.count_le s
    have c0 := f.acc i hi
    obtain ⟨m1, m2⟩ := s.max
    obtain ⟨u1, u2⟩ := s.sum
    have := s.head; have := s.tail
    have c1 : 0 ≤ (z.sel i).count := by
      show (0 : Int) ≤ ((z.sel i).picks.length : Nat); omega
    exact ⟨⟨m1, m2⟩, s.skip, ⟨by omega, by omega⟩, ⟨by omega, by omega⟩, ⟨by omega, by omega⟩⟩
  have k0 := k 0 (by decide); have k1 := k 1 (by decide); have k2 := k 2 (by decide)
  exact ⟨⟨k0.1, k1.1, k2.1⟩, ⟨k0.2.1, k1.2.1, k2.2.1⟩, ⟨k0.2.2.1, k1.2.2.1, k2.2.2.1⟩, ⟨k0.2.2.2.1, k1.2.2.2.1, k2.2.2.2.1⟩,
    ⟨k0.2.2.2.2, k1.2.2.2.2, k2.2.2.2.2⟩⟩

theorem Zone.dataHead_length (z : Zone) : z.dataHead.length = 16 + 4 * z.Data.length := by
  unfold Zone.dataHead
  have : ∀ d ∈ z.Data, (int4 d.type.code).length = 4 := fun _ _ => leBytes_length ..
  have e : ((z.Data.flatMap fun d => int4 d.type.code)).length = 4 * z.Data.length := by
    rw [List.length_flatMap, List.map_congr_left this, List.map_const', List.sum_replicate_nat, Nat.mul_comm]
  simp only [List.length_append, leBytes_length, e]
  have a : ∀ x, (int4 x).length = 4 := fun _ => leBytes_length ..
  rw [a, a]; omega

theorem blocks_length {z : Zone} (f : z.Fits) {data : Nat → Str} (hv : ∀ i d, z.Data[i]? = some d → (data i).length = z.total d.size) :
    ((List.range z.Data.length).flatMap (z.blockAt data)).length = (z.Data.map fun d => z.points * d.size).sum := by
  rw [List.length_flatMap]
  congr 1
  apply List.ext_getElem?
  intro i
  rw [List.getElem?_map, List.getElem?_map]
  by_cases hi : i < z.Data.length
  · have h0 := List.getElem?_eq_getElem hi
    rw [List.getElem?_range hi, h0]
    simp only [Option.map_some, Zone.blockAt, h0]
    rw [block_length f (hv i _ h0)]
  · rw [List.getElem?_eq_none (by simpa using hi), List.getElem?_eq_none (by simpa using hi)]; rfl

end Verif.Tec
