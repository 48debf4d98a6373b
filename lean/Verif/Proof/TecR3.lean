import Verif.Proof.TecR2
/-!
# Writing a zone: the whole run
-/
namespace Verif.Tec
open Spec

def oomText : Str := lit "maybe out of memory: std::bad_alloc"

/-- the text of the size of a zone -/
def Zone.mb (z : Zone) : Str := fmtMB (z.dataLen z.points)

theorem Zone.write_plt_data_total {z : Zone} (f : z.Fits) {le : F64 → Str} (hle : ∀ x, (le x).length ≤ 30) {vars : List Str} (echo : Bool) {s : ZSt}
    (data : Nat → Str) (hz : s.z = z.gathered) (fr : Fresh s.h) (hv : ∀ i d, z.Data[i]? = some d → z.VarOk s.h d ((data i).map some))
    (hset : ∀ d ∈ z.Data, d.type ≠ .null ∧ d.type.bytes ≤ d.size) (hn : z.Data.length = vars.length) (hlog : z.Data.length ≤ s.l.Data.length)
    (hs : InI32 z.StrandId) (hsz : z.dataLen z.points < 9223372036854775808) :
    (∃ t, Zone.write_plt_data le vars echo s = .ok () t ∧
      t.out = s.out ++ pr echo (printed (zoneLines le vars z z.gathered.Real_Dim z.gathered.Real_Max z.mb)) ∧
      t.l.Echo_Text = s.l.Echo_Text ++ keptLines (zoneLines le vars z z.gathered.Real_Dim z.gathered.Real_Max z.mb)) ∨
    ((∃ k n, s.h.mem k n = false) ∧ ∃ t, Zone.write_plt_data le vars echo s = .err (.text oomText) t) := by
  obtain ⟨rp, rp0, rp1⟩ := realProd_fits f
  have hu : toU64 (z.points : Int) = z.points := by rw [toU64_ok (by omega) (by omega)]; omega
  unfold Zone.write_plt_data
  rw [M.get_bind_run, M.bind_ok (zfile_run (W_FLOAT32_run _ _)),
    M.bind_ok (each_zfile (fun j : TecData => W_INT32 j.type.code) (fun j => int4 j.type.code) (fun j s => W_INT32_run _ s) _ _),
    M.bind_ok (zfile_run (W_INT32_run _ _)), M.bind_ok (zfile_run (W_INT32_run _ _)), M.bind_ok (zfile_run (W_INT32_run _ _))]
  have e1 : s.of ++ leBytes 4 f299 ++ s.z.Data.flatMap (fun j => int4 j.type.code) ++ int4 0 ++ int4 0 ++ int4 (-1) = s.of ++ z.dataHead := by
    rw [hz]; unfold Zone.dataHead; simp only [List.append_assoc]; rfl
  simp only [e1]
  rcases Zone.make_buf_ok f fr (fun i => (data i).map some) hv with ⟨-, D, h1, nr, mb, B⟩ | ⟨-, ⟨i, d, -, hm⟩, D, h', ex, -, -⟩
  · left
    rw [M.bind_ok (zbuf_run (t := ⟨h1, { z.gathered with Data := D, needreal := nr }⟩) (by rw [hz]; exact mb)), M.get_bind_run]
    simp only
    have Dl : D.length = z.Data.length := B.len
    have hD : ∀ i d, D[i]? = some d → ∃ d0, z.Data[i]? = some d0 ∧ d = { d0 with buf := d.buf } ∧
        Holds h1 d.buf ((z.blockAt data i).map some) ∧ (z.blockAt data i).length = z.points * d.size := by
      intro i d hd
      have hi : i < z.Data.length := by rw [← B.len]; exact (List.getElem?_eq_some_iff.mp hd).1
      have h0 := List.getElem?_eq_getElem hi
      obtain ⟨q, hq, hH⟩ := B.holds i _ h0
      rw [hd] at hq; cases hq
      refine ⟨_, h0, rfl, ?_, ?_⟩
      · unfold Zone.blockAt; rw [h0]
        simp only
        unfold Zone.block; rw [← selectedBytes_map]; exact hH
      · unfold Zone.blockAt; rw [h0]
        have := (hv i _ h0).len
        rw [List.length_map] at this
        exact block_length f this
    generalize hs1 : ({ h := h1, of := s.of ++ z.dataHead, out := s.out, z := { z.gathered with Data := D, needreal := nr }, l := s.l } : ZSt) = s1
    have s1h : s1.h = h1 := by rw [← hs1]
    have s1z : s1.z = { z.gathered with Data := D, needreal := nr } := by rw [← hs1]
    have s1o : s1.out = s.out := by rw [← hs1]
    have s1l : s1.l = s.l := by rw [← hs1]
    have s1f : s1.of = s.of ++ z.dataHead := by rw [← hs1]
    have rp1' : s1.z.realProd = .ok (z.points : Int) := by rw [s1z]; exact rp
    obtain ⟨s2, r2, o2, t2, f2⟩ := minMax_go D 0 s1 (by
      intro i d hd
      obtain ⟨d0, h0, hd0, hH, hl⟩ := hD i d hd
      have hs0 := hset d0 (List.mem_of_getElem? h0)
      have ht : d.type = d0.type := by rw [hd0]
      have hsz : d.size = d0.size := by rw [hd0]
      obtain ⟨mm, e⟩ := TecData.minmax_total (N := z.points) (by rw [ht]; exact hs0.1) hH
        (by rw [hl, ht, hsz]; exact Nat.mul_le_mul_left _ hs0.2) (by omega)
      exact ⟨_, mm, rp1', by rw [hu, s1h]; exact e⟩) (by rw [s1l]; omega)
    obtain ⟨mm, st2, -⟩ := minMax_all D 0 s1 s2 r2
    have s2z : s2.z = { z.gathered with Data := D, needreal := nr } := by rw [st2.z, s1z]
    have s2h : s2.h = h1 := by rw [st2.h, s1h]
    rw [M.bind_ok r2]
    obtain ⟨g1, g2, g3, g4, g5⟩ := f.ints
    obtain ⟨n1, n2⟩ := nonUnit_bound fun i => (z.sel i).count
    have r3 := echoInfo_says hle echo (z := { z.gathered with Data := D, needreal := nr }) g1 g2 g3 g4 g5 n1 n2 hs s2 s2z s2.out s2.l.Echo_Text
    rw [ZSt.rep_self] at r3
    rw [M.bind_ok r3]
    clear r3
    have dl2 : s2.l.Data.length = s.l.Data.length := by
      have := congrArg List.length st2.data
      rw [this, editRange_length, s1l]
    obtain ⟨of, D', hF, r4⟩ := vars_says (echo := echo) (vars := vars) (z.blockAt data) D s2 z.Echo_Mode (by rw [s2z]; rfl)
      (by rw [s2z]; exact rp) (by
        intro i d hd
        obtain ⟨-, -, -, hh, hl⟩ := hD i d hd
        rw [s2h]
        exact ⟨hh, by rw [hl, hu, Nat.mul_comm]⟩) (by omega) (by omega)
      (rest := _) _ _
    erw [r4]
    clear r4
    generalize hs3 : ZSt.rep (s2.put of D') _ _ = s3
    have s3z : s3.z = { z.gathered with Data := D, needreal := nr } := by rw [← hs3]; exact s2z
    have s3h : s3.h = h1 := by rw [← hs3]; exact s2h
    have s3f : s3.of = of := by rw [← hs3]; rfl
    obtain ⟨h2, E, rb, -, -, -, -⟩ := Zone.realise_ok fr B s3.z (by rw [s3z]) (by rw [s3z])
    rw [M.bind_ok (zbuf_run (t := ⟨h2, { s3.z with Data := E, needreal := false }⟩) (by rw [s3h]; exact rb)), M.get_bind_run, M.modify_bind_run]
    have hlen : s3.of.length - s.of.length = z.dataLen z.points := by
      rw [s3f, hF, f2, s1f, List.length_append, Zone.dataHead_length, Dl, blocks_length f (fun i d hd => by
        have := (hv i d hd).len; rw [List.length_map] at this; exact this)]
      unfold Zone.dataLen
      omega
    simp only [hlen]
    have s3o := congrArg ZSt.out hs3
    have s3t := congrArg (fun s : ZSt => s.l.Echo_Text) hs3
    simp only [ZSt.rep] at s3o s3t
    have hmb := fmtMB_short hsz
    generalize hs4 : ({ h := h2, of := s3.of, out := s3.out, z := { s3.z with Data := E, needreal := false }, l := { s3.l with Size := some (z.dataLen z.points) } } : ZSt) = s4
    have fin := (Says.ifB (echo := echo) (e := z.Echo_Mode) (k := 8) (x := .same (lit "     zone size: " ++ z.mb ++ lit "MB")) (m := do
        let b ← sprintf 100 (lit "     zone size: " ++ fmtMB (z.dataLen z.points) ++ lit "MB")
        ZSt.print echo (b ++ lit "\n")
        ZSt.push b) (says_one (by
          intro s o T
          rw [sprintf_ok (by lits; omega), M.liftM_eq, M.lift_ok, pure_bind, M.bind_ok (zprint_run ..), zpush_run]; rfl))) s4 s4.out s4.l.Echo_Text
    rw [ZSt.rep_self] at fin
    refine ⟨_, fin, ?_, ?_⟩
    · rw [← hs4]
      simp only [ZSt.rep]
      rw [← s3o, o2, s1o]
      unfold zoneLines
      simp only [printed_append, ← pr_append, List.append_assoc]
      rfl
    · rw [← hs4]
      simp only [ZSt.rep]
      rw [← s3t, t2, s1l]
      unfold zoneLines
      simp only [kept_append, List.append_assoc]
      rfl
  · right
    refine ⟨⟨_, _, hm⟩, ?_⟩
    have : ∀ (u : ZSt), u.h = s.h → u.z = z.gathered → ZSt.buf Zone.make_buf u = .err (.text oomText) { u with h := h', z := { z.gathered with Data := D } } := by
      intro u h1 h2
      unfold ZSt.buf; rw [h1, h2, ex]; rfl
    rw [M.bind_err (this { s with of := s.of ++ z.dataHead } rfl hz)]
    exact ⟨_, rfl⟩

end Verif.Tec
