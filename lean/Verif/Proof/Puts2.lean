import Verif.Proof.Puts1
import Verif.Props.Program
/-!
# Helper lemmas: the winning assignment
-/
namespace Verif
open Spec
variable {V : Type} {mem : Nat → Nat → Bool} {chk : Bool} {w : World V} {aw : AWorld V}

theorem lex_total : ∀ (a b : List Int), List.Lex intLt a b ∨ a = b ∨ List.Lex intLt b a
  | [], [] => .inr (.inl rfl)
  | [], _ :: _ => .inl .nil
  | _ :: _, [] => .inr (.inr .nil)
  | x :: a, y :: b => by
    by_cases h : x < y
    · exact .inl (.rel h)
    · by_cases h' : y < x
      · exact .inr (.inr (.rel h'))
      · obtain rfl : x = y := by omega
        rcases lex_total a b with h | rfl | h
        · exact .inl (.cons h)
        · exact .inr (.inl rfl)
        · exact .inr (.inr (.cons h))

theorem wins_exists (es : List Ext) (ys : List Int) : ∀ (l : List (Put V)), (∃ p ∈ l, p.Hits es ys) → ∃ l1 p l2, l = l1 ++ p :: l2 ∧ Wins es l1 p l2 ys
  | [], h => by simp at h
  | q :: l, h => by
    by_cases hl : ∃ p ∈ l, p.Hits es ys
    · obtain ⟨l1, p, l2, rfl, h1, h2, h3⟩ := wins_exists es ys l hl
      by_cases hq : q.Hits es ys ∧ List.Lex intLt (p.lastAt es ys) (q.lastAt es ys)
      · refine ⟨[], q, l1 ++ p :: l2, rfl, hq.1, by simp, fun r hr hr' => ?_⟩
        rcases List.mem_append.1 hr with hr | hr
        · rcases h2 r hr hr' with h | h
          · exact lex_trans h hq.2
          · rw [h]; exact hq.2
        · rcases List.mem_cons.1 hr with rfl | hr
          · exact hq.2
          · exact lex_trans (h3 r hr hr') hq.2
      · refine ⟨q :: l1, p, l2, rfl, h1, fun r hr hr' => ?_, h3⟩
        rcases List.mem_cons.1 hr with rfl | hr
        · rcases lex_total (r.lastAt es ys) (p.lastAt es ys) with h | h | h
          · exact .inl h
          · exact .inr h
          · exact (hq ⟨hr', h⟩).elim
        · exact h2 r hr hr'
    · refine ⟨[], q, l, rfl, ?_, by simp, fun r hr hr' => (hl ⟨r, hr, hr'⟩).elim⟩
      obtain ⟨p, hp, hp'⟩ := h
      rcases List.mem_cons.1 hp with rfl | hp
      · exact hp'
      · exact (hl ⟨p, hp, hp'⟩).elim

/-- the numbers after the loop -/
def putVals (es : List Ext) (N : Nat) (l : List (Put V)) (v : Nat → List Int → Option V) : Nat → List Int → Option V :=
  (loopPts ⟨some (0, N), [], tagZones es (List.replicate es.length .ALL)⟩).foldl (putBody es l) v

theorem putBody_keeps {es : List Ext} {l : List (Put V)} {n : Nat} {ys : List Int} {a : Nat × List Int}
    (h : ∀ p ∈ l, ¬ (n = a.1 ∧ ys = point (argsOf es p.far a.2) p.fs)) (v : Nat → List Int → Option V) : putBody es l v a n ys = v n ys :=
  foldl_keeps _ l v fun p hp _ => if_neg (h p hp)

theorem putLoop_run {x : Nat} {k : Kind} {es : List Ext} {val : Nat → List Int → Option V} (R : Reach mem chk w aw)
    (hx : aw.arr x = some (k, .ready es val)) {l : List (Put V)} (hl : ∀ p ∈ l, p.far.length = k.locs.length ∧ FlagsFit k.locs p.fs) (s : PutVars) :
    es.length = k.locs.length ∧ ∃ w' s', (putLoop x k.N k.locs.length l).exec chk (w, s) = .ok () (w', s') ∧
      Reach mem chk w' (aw.set x (some (k, .ready es (putVals es k.N l val)))) := by
  have hd := R.dims hx
  obtain ⟨L, R'⟩ := R.rel
  obtain ⟨o, hb, hk, h0, r⟩ := R'.arr_some hx
  have hes : es.length = k.locs.length := by
    cases r with
    | @ready _ _ B cell r fits pos vals => exact r.len
  refine ⟨hes, ?_⟩
  have hok : LoopOk ⟨some (0, k.N), [], tagZones es (List.replicate es.length .ALL)⟩ := by
    have hz : ∀ (es : List Ext), DimsFit es → (tagZones es (List.replicate es.length .ALL)).length = es.length ∧
        ∀ r ∈ tagZones es (List.replicate es.length .ALL), 0 ≤ r.2 ∧ InI32 (r.1 + r.2) := by
      intro es
      induction es with
      | nil => simp [tagZones]
      | cons e es ih =>
        intro hd
        obtain ⟨i1, i2⟩ := ih fun e he => hd e (by simp [he])
        have := hd e (by simp)
        simp only [List.length_cons, List.replicate_succ, tagZones, i1, true_and]
        intro r hr
        rcases List.mem_cons.1 hr with rfl | hr
        · simp only [tagBegin, tagEnd, InI32]; omega
        · exact i2 r hr
    obtain ⟨z1, z2⟩ := hz es hd
    refine ⟨?_, by simp, ?_, .inl rfl, z2⟩
    · show (tagZones _ _).length ≤ 3
      rw [z1, hes]; rcases hk.1 with h | h | h <;> omega
    · intro be h; cases h; exact ⟨Nat.zero_le _, hk.2⟩
  have h1 := fun t => pts_putAll (mem := mem) (chk := chk) (x := x) (aw := aw) hes hl (loopPts ⟨some (0, k.N), [], tagZones es (List.replicate es.length .ALL)⟩) val t
    (fun a ha => by
      obtain ⟨n, xs⟩ := a
      obtain ⟨g1, g2⟩ := mem_loopPts.1 ha
      exact ⟨g1, (zones_all es xs).1 g2⟩)
  obtain ⟨s', e⟩ := h1 { s with R := tagZones es (List.replicate es.length .ALL) }
  have haw : aw.set x (some (k, .ready es val)) = aw := by
    simp only [AWorld.set]
    congr 1
    funext y
    by_cases hy : y = x
    · subst hy; simp [hx]
    · simp [hy]
  rw [haw] at e
  have h2 : (putLoop x k.N k.locs.length l).aexec mem chk aw s = .done () (aw.set x (some (k, .ready es (putVals es k.N l val)))) s' := by
    simp only [putLoop, Stmt.aexec, AM.andThen, hx, List.length_replicate, if_true, extents]
    rw [← hes, if_pos hok]
    exact e
  obtain ⟨w', h3, h4⟩ := (Props.C94 R _ s).1 _ _ h2
  exact ⟨w', s', h3, h4⟩

theorem putVals_none {k : Kind} {es : List Ext} (hes : es.length = k.locs.length) {l : List (Put V)}
    (hl : ∀ p ∈ l, p.far.length = k.locs.length ∧ FlagsFit k.locs p.fs) (v : Nat → List Int → Option V) {n : Nat} {ys : List Int}
    (h : n < k.N → ∀ p ∈ l, ¬ p.Hits es ys) : putVals es k.N l v n ys = v n ys := by
  refine foldl_keeps _ _ v fun a ha v => putBody_keeps (fun p hp => ?_) v
  obtain ⟨m, xs⟩ := a
  obtain ⟨g1, g2⟩ := mem_loopPts.1 ha
  rintro ⟨rfl, rfl⟩
  exact h g1 p hp (hits_of _ _ _ _ _ hes (hl p hp).1 (hl p hp).2 ((zones_all es xs).1 g2)).1

theorem putVals_wins {k : Kind} {es : List Ext} (hes : es.length = k.locs.length) {l1 l2 : List (Put V)} {p : Put V}
    (hl : ∀ q ∈ l1 ++ p :: l2, q.far.length = k.locs.length ∧ FlagsFit k.locs q.fs) (v : Nat → List Int → Option V) {n : Nat} (hn : n < k.N) {ys : List Int}
    (h : Wins es l1 p l2 ys) : putVals es k.N (l1 ++ p :: l2) v n ys = some (p.val n (p.lastAt es ys)) := by
  obtain ⟨h1, h2, h3⟩ := h
  obtain ⟨i1, i2⟩ := iter_of _ _ _ _ h1
  change ys = point (argsOf es p.far (p.lastAt es ys)) p.fs at i2
  have hm : (n, p.lastAt es ys) ∈ loopPts ⟨some (0, k.N), [], tagZones es (List.replicate es.length .ALL)⟩ :=
    mem_loopPts.2 ⟨hn, (zones_all es _).2 i1⟩
  have hs := sorted_loopPts k.N (tagZones es (List.replicate es.length .ALL))
  have hall : ∀ a ∈ loopPts ⟨some (0, k.N), [], tagZones es (List.replicate es.length .ALL)⟩, ∀ q ∈ l1 ++ p :: l2,
      n = a.1 ∧ ys = point (argsOf es q.far a.2) q.fs → q.Hits es ys ∧ (a.2 = q.lastAt es ys ∨ List.Lex intLt a.2 (q.lastAt es ys)) := by
    rintro ⟨m, xs⟩ ha q hq ⟨-, rfl⟩
    obtain ⟨j1, j2⟩ := hits_of _ _ _ _ _ hes (hl q hq).1 (hl q hq).2 ((zones_all es xs).1 (mem_loopPts.1 ha).2)
    exact ⟨j1, le_lex j2⟩
  unfold putVals
  obtain ⟨A, B, hAB⟩ := List.append_of_mem hm
  rw [hAB] at hs hall ⊢
  rw [List.foldl_append, List.foldl_cons, foldl_keeps]
  · rw [body_find]
    have : (l1 ++ p :: l2).reverse.find? (fun q => decide (ys = point (argsOf es q.far (p.lastAt es ys)) q.fs)) = some p := by
      rw [List.reverse_append, List.reverse_cons, List.find?_append, List.find?_append]
      have : l2.reverse.find? (fun q => decide (ys = point (argsOf es q.far (p.lastAt es ys)) q.fs)) = none := by
        rw [List.find?_eq_none]
        intro q hq
        rw [List.mem_reverse] at hq
        intro hq'
        obtain ⟨g1, g2⟩ := hall (n, p.lastAt es ys) (by simp) q (by simp [hq]) ⟨rfl, of_decide_eq_true hq'⟩
        have := h3 q hq g1
        rcases g2 with g2 | g2
        · simp only at g2; rw [← g2] at this; exact lex_irrefl _ this
        · exact lex_irrefl _ (lex_trans this g2)
      rw [this]
      simp only [List.find?_singleton, Option.none_or]
      rw [if_pos (decide_eq_true i2)]; rfl
    rw [this]
  · intro b hb v
    refine putBody_keeps (fun q hq hq' => ?_) v
    obtain ⟨g1, g2⟩ := hall b (by simp [hb]) q hq hq'
    have hlt : List.Lex intLt (p.lastAt es ys) b.2 := by
      have := (List.pairwise_append.1 hs).2.1
      rcases (List.pairwise_cons.1 this).1 b hb with h | h
      · exact absurd hq'.1 (by simp at h; omega)
      · exact h.2
    have hlt' : List.Lex intLt (p.lastAt es ys) (q.lastAt es ys) := by
      rcases g2 with g2 | g2
      · rw [← g2]; exact hlt
      · exact lex_trans hlt g2
    rcases List.mem_append.1 hq with hq | hq
    · rcases h2 q hq g1 with h | h
      · exact lex_irrefl _ (lex_trans h hlt')
      · rw [h] at hlt'; exact lex_irrefl _ hlt'
    · rcases List.mem_cons.1 hq with rfl | hq
      · exact lex_irrefl _ hlt'
      · exact lex_irrefl _ (lex_trans (h3 q hq g1) hlt')

theorem flags_cover : ∀ (es : List Ext) (ls : List Loc) (ys : List Int), es.length = ls.length → HasPt (mkShape es ls) ys → (∀ e ∈ es, 0 < e.n + e.i + e.p) →
    ∃ fs, FlagsFit ls fs ∧ ∀ bs : List Bool, bs.length = ls.length → (∀ d : Nat, bs[d]? = some true → fs[d]? = some FL.P) → hits es bs fs ys
  | [], [], [], _, _, _ => ⟨[], trivial, fun bs h _ => by cases bs with | nil => trivial | cons => simp at h⟩
  | e :: es, l :: ls, y :: ys, h, ⟨h1, h2⟩, h3 => by
    obtain ⟨fs, f1, f2⟩ := flags_cover es ls ys (by simpa using h) h2 fun e he => h3 e (by simp [he])
    have hp := h3 e (by simp)
    have step : ∀ f : FL, flagFits l f = true → (f ≠ .P → -(e.n : Int) ≤ y ∧ y < e.i + e.p) → (f = .P → y = e.i + e.p) →
        ∃ fs, FlagsFit (l :: ls) fs ∧ ∀ bs : List Bool, bs.length = (l :: ls).length → (∀ d : Nat, bs[d]? = some true → fs[d]? = some FL.P) → hits (e :: es) bs fs (y :: ys) := by
      intro f hf hN hP
      refine ⟨f :: fs, ⟨hf, f1⟩, fun bs hb hd => ?_⟩
      match bs, hb with
      | b :: bs, hb =>
        refine ⟨?_, f2 bs (by simpa using hb) fun d h => by simpa using hd (d + 1) (by simpa using h)⟩
        have h0 := hd 0
        unfold hits1
        cases b <;> cases f <;> simp_all [FL.offset] <;> omega
    simp only [Dim.Has] at h1
    cases l with
    | center => exact step .C rfl (fun _ => by simpa [Loc.toNat] using h1) (by simp)
    | half =>
      by_cases hy : y = e.i + e.p
      · exact step .P rfl (by simp) fun _ => hy
      · exact step .N rfl (fun _ => by simp [Loc.toNat] at h1; omega) (by simp)
  | [], [], _ :: _, _, h, _ => h.elim
  | [], _ :: _, _, h, _, _ => by simp at h
  | _ :: _, [], _, h, _, _ => by simp at h
  | _ :: _, _ :: _, [], _, h, _ => h.elim

theorem lex3 {a b c a' b' c' : Int} : List.Lex intLt [a, b, c] [a', b', c'] ↔ a < a' ∨ a = a' ∧ (b < b' ∨ b = b' ∧ c < c') := by
  constructor
  · intro h
    cases h with
    | rel h => exact .inl h
    | cons h => cases h with
      | rel h => exact .inr ⟨rfl, .inl h⟩
      | cons h => cases h with
        | rel h => exact .inr ⟨rfl, .inr ⟨rfl, h⟩⟩
        | cons h => cases h
  · rintro (h | ⟨rfl, h | ⟨rfl, h⟩⟩)
    · exact .rel h
    · exact .cons (.rel h)
    · exact .cons (.cons (.rel h))

theorem split_at {α : Type} (l : List α) (i : Nat) (h : i < l.length) : l = l.take i ++ l[i] :: l.drop (i + 1) := by
  rw [List.getElem_cons_drop, List.take_append_drop]

/-- decides which of the assignments to the faces wins -/
macro "settle_faces" : tactic => `(tactic| (
  simp only [Wins, d3hFaces, List.take_succ_cons, List.take_zero, List.drop_succ_cons, List.drop_zero, List.getElem_cons_succ, List.getElem_cons_zero,
    List.forall_mem_cons, List.not_mem_nil, false_imp_iff, implies_true, and_true, Put.Hits, hits, hits1, Put.lastAt, lastIter, lex3, FL.offset,
    List.cons.injEq, if_true, true_and, Bool.false_eq_true, if_false]
  refine ⟨?_, ?_, ?_⟩ <;> (try and_intros) <;> omega))

/-- an assignment with a flag `FL::N` does not reach the far corner -/
theorem corner_not_hit : ∀ (es : List Ext) (bs : List Bool) (fs : List FL), FL.N ∈ fs → ¬ hits es bs fs (es.map fun e => (e.i : Int) + e.p)
  | [], _, f :: fs, _, h => by cases ‹List Bool› <;> simp [hits] at h
  | _ :: _, [], _, _, h => by simp [hits] at h
  | e :: es, b :: bs, f :: fs, hn, h => by
    simp only [List.map_cons, hits] at h
    rcases List.mem_cons.1 hn with rfl | hn
    · have := h.1
      unfold hits1 at this
      split at this <;> simp only [FL.offset] at this <;> omega
    · exact corner_not_hit es bs fs hn h.2

end Verif
