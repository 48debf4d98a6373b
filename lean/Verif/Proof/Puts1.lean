import Verif.Spec.Puts
import Verif.Proof.ProgramContract
import Verif.Proof.Client1
/-!
# Helper lemmas: loops of assignments
-/
namespace Verif
open Spec
variable {V : Type} {mem : Nat → Nat → Bool} {chk : Bool}

/-- the index arguments -/
def argsOf : List Ext → List Bool → List Int → List Int
  | e :: es, b :: bs, i :: xs => (if b then e.i + e.p - 1 else i) :: argsOf es bs xs
  | _, _, _ => []

theorem argsOf_length : ∀ (es : List Ext) (bs : List Bool) (xs : List Int), bs.length = es.length → xs.length = es.length →
    (argsOf es bs xs).length = es.length
  | [], [], [], _, _ => rfl
  | e :: es, b :: bs, i :: xs, h, h' => by
    simp only [argsOf, List.length_cons, argsOf_length es bs xs (by simpa using h) (by simpa using h')]

theorem putArgs_run {x : Nat} {k : Kind} {es : List Ext} {w : AWorld V} {v : Nat → List Int → Option V} (hx : w.arr x = some (k, .ready es v)) :
    ∀ (bs : List Bool) (d : Nat) (s : PutVars), d + bs.length = es.length → s.xs.length = es.length →
      (putArgs x d bs : Stmt V PutVars).aexec mem chk w s = .done () w { s with args := s.args ++ argsOf (es.drop d) bs (s.xs.drop d) }
  | [], d, s, h, hl => by
    have : argsOf (es.drop d) [] (s.xs.drop d) = [] := by cases es.drop d <;> rfl
    rw [this, List.append_nil]; rfl
  | b :: bs, d, s, h, hl => by
    have hd : d < es.length := by simp at h; omega
    have hd' : d < s.xs.length := by omega
    have e1 : argsOf (es.drop d) (b :: bs) (s.xs.drop d) =
        (if b then (es[d].i : Int) + es[d].p - 1 else s.xs[d]) :: argsOf (es.drop (d + 1)) bs (s.xs.drop (d + 1)) := by
      rw [List.drop_eq_getElem_cons hd, List.drop_eq_getElem_cons hd']; rfl
    have e2 : es[d]? = some es[d] := List.getElem?_eq_getElem hd
    cases b with
    | true =>
      have ih := putArgs_run hx bs (d + 1) { s with args := s.args ++ [(es[d].i : Int) + es[d].p - 1] } (by simp at h ⊢; omega) hl
      rw [e1]
      simp only [putArgs, Stmt.aexec, AM.andThen, hx, extents, Query.dim, e2, answer, tagEnd]
      rw [ih]; simp
    | false =>
      have ih := putArgs_run hx bs (d + 1) { s with args := s.args ++ [s.xs[d]] } (by simp at h ⊢; omega) hl
      rw [e1]
      have e3 : s.xs.getD d 0 = s.xs[d] := by simp [hd']
      simp only [putArgs, Stmt.aexec, AM.andThen, e3]
      rw [ih]; simp

/-- one number changed -/
def upd (v : Nat → List Int → Option V) (n : Nat) (ys : List Int) (a : V) : Nat → List Int → Option V :=
  fun m zs => if m = n ∧ zs = ys then some a else v m zs

/-- the numbers after one assignment -/
def putOne (es : List Ext) (n : Nat) (xs : List Int) (v : Nat → List Int → Option V) (p : Put V) : Nat → List Int → Option V :=
  upd v n (point (argsOf es p.far xs) p.fs) (p.val n xs)

/-- after the body -/
def putBody (es : List Ext) (l : List (Put V)) (v : Nat → List Int → Option V) (a : Nat × List Int) : Nat → List Int → Option V :=
  l.foldl (putOne es a.1 a.2) v

theorem hasPt_args : ∀ (es : List Ext) (ls : List Loc) (bs : List Bool) (fs : List FL) (xs : List Int), es.length = ls.length → bs.length = ls.length →
    FlagsFit ls fs → List.Forall₂ (fun (e : Ext) x => -(e.n : Int) ≤ x ∧ x < e.i + e.p) es xs → HasPt (mkShape es ls) (point (argsOf es bs xs) fs)
  | [], [], [], [], [], _, _, _, _ => trivial
  | e :: es, l :: ls, b :: bs, f :: fs, x :: xs, h1, h2, ⟨h3, h3'⟩, .cons h4 h5 => by
    refine ⟨?_, hasPt_args es ls bs fs xs (by simpa using h1) (by simpa using h2) h3' h5⟩
    simp only [Dim.Has]
    have : f.offset = 0 ∨ f.offset = 1 ∧ l.toNat = 1 := by cases l <;> cases f <;> simp_all [flagFits, FL.offset, Loc.toNat]
    cases b <;> simp <;> omega
  | [], [], [], _ :: _, _, _, _, h, _ => h.elim
  | [], _ :: _, _, _, _, h, _, _, _ => by simp at h
  | _ :: _, [], _, _, _, h, _, _, _ => by simp at h
  | _ :: _, _ :: _, [], _, _, _, h, _, _ => by simp at h
  | [], [], _ :: _, _, _, _, h, _, _ => by simp at h
  | _ :: _, _ :: _, _ :: _, [], _, _, _, h, _ => h.elim

theorem put_run {x : Nat} {k : Kind} {es : List Ext} {aw : AWorld V} (hes : es.length = k.locs.length) {v : Nat → List Int → Option V} {p : Put V}
    (hb : p.far.length = k.locs.length) (hf : FlagsFit k.locs p.fs) {s : PutVars} (hn : s.n < k.N)
    (hxs : List.Forall₂ (fun (e : Ext) x => -(e.n : Int) ≤ x ∧ x < e.i + e.p) es s.xs) :
    ∃ s', (p.stmt x).aexec mem chk (aw.set x (some (k, .ready es v))) s = .done () (aw.set x (some (k, .ready es (putOne es s.n s.xs v p)))) s' ∧
      s'.n = s.n ∧ s'.xs = s.xs := by
  have hl : s.xs.length = es.length := hxs.length_eq.symm
  have hx : (aw.set x (some (k, .ready es v))).arr x = some (k, .ready es v) := by simp [AWorld.set]
  have h1 := putArgs_run (mem := mem) (chk := chk) hx p.far 0 { s with args := [] } (by omega) hl
  have va : Valid k es s.n (argsOf es p.far s.xs) p.fs :=
    ⟨by rw [argsOf_length _ _ _ (by omega) hl, hes], hn, hf, hasPt_args _ _ _ _ _ hes hb hf hxs⟩
  refine ⟨{ s with args := argsOf es p.far s.xs }, ?_, rfl, rfl⟩
  simp only [Put.stmt, Stmt.aexec, AM.andThen]
  rw [h1]
  simp only [List.nil_append, List.drop_zero, astep, hx, va.lenx, va.lenf, and_self, if_true, va.err hes]
  congr 1
  simp only [AWorld.set, AWorld.mk.injEq, and_true]
  funext y
  by_cases hy : y = x <;> simp [hy, putOne]
  rfl

theorem putAll_run {x : Nat} {k : Kind} {es : List Ext} {aw : AWorld V} (hes : es.length = k.locs.length) :
    ∀ (l : List (Put V)) (v : Nat → List Int → Option V) (s : PutVars),
    (∀ p ∈ l, p.far.length = k.locs.length ∧ FlagsFit k.locs p.fs) → s.n < k.N →
    List.Forall₂ (fun (e : Ext) x => -(e.n : Int) ≤ x ∧ x < e.i + e.p) es s.xs →
    ∃ s', (putAll x l).aexec mem chk (aw.set x (some (k, .ready es v))) s = .done () (aw.set x (some (k, .ready es (putBody es l v (s.n, s.xs))))) s'
  | [], v, s, _, _, _ => ⟨s, rfl⟩
  | p :: l, v, s, h, hn, hxs => by
    obtain ⟨s1, e1, h1, h2⟩ := put_run (mem := mem) (chk := chk) (x := x) (aw := aw) hes (v := v) (h p (by simp)).1 (h p (by simp)).2 hn hxs
    obtain ⟨s2, e2⟩ := putAll_run hes l (putOne es s.n s.xs v p) s1 (fun q hq => h q (by simp [hq])) (by omega) (by rw [h2]; exact hxs)
    refine ⟨s2, ?_⟩
    simp only [putAll, Stmt.aexec, AM.andThen]
    rw [e1]; simp only
    rw [e2, h1, h2]; rfl

theorem pts_putAll {x : Nat} {k : Kind} {es : List Ext} {aw : AWorld V} (hes : es.length = k.locs.length) {l : List (Put V)}
    (h : ∀ p ∈ l, p.far.length = k.locs.length ∧ FlagsFit k.locs p.fs) :
    ∀ (pts : List (Nat × List Int)) (v : Nat → List Int → Option V) (s : PutVars),
    (∀ a ∈ pts, a.1 < k.N ∧ List.Forall₂ (fun (e : Ext) x => -(e.n : Int) ≤ x ∧ x < e.i + e.p) es a.2) →
    ∃ s', AM.through (fun (_ : Unit) (a : Nat × List Int) w s => (putAll x l).aexec mem chk w { s with n := a.1, xs := a.2 }) () pts
      (aw.set x (some (k, .ready es v))) s = .done () (aw.set x (some (k, .ready es (pts.foldl (putBody es l) v)))) s'
  | [], v, s, _ => ⟨s, rfl⟩
  | a :: pts, v, s, hp => by
    obtain ⟨s1, e1⟩ := putAll_run (mem := mem) (chk := chk) (x := x) (aw := aw) hes l v { s with n := a.1, xs := a.2 } h (hp a (by simp)).1 (hp a (by simp)).2
    obtain ⟨s2, e2⟩ := pts_putAll hes h pts (putBody es l v a) s1 (fun b hb => hp b (by simp [hb]))
    refine ⟨s2, ?_⟩
    simp only [AM.through, AM.andThen]
    rw [e1]; simp only
    exact e2

/-! ## The last assignment -/

theorem foldl_keeps {α : Type} {n : Nat} {ys : List Int} (f : (Nat → List Int → Option V) → α → Nat → List Int → Option V) :
    ∀ (l : List α) (v : Nat → List Int → Option V), (∀ a ∈ l, ∀ v, f v a n ys = v n ys) → l.foldl f v n ys = v n ys
  | [], _, _ => rfl
  | a :: l, v, h => by rw [List.foldl_cons, foldl_keeps f l _ fun b hb => h b (by simp [hb]), h a (by simp)]

theorem body_find (es : List Ext) (m : Nat) (xs : List Int) (ys : List Int) : ∀ (l : List (Put V)) (v : Nat → List Int → Option V),
    putBody es l v (m, xs) m ys = match l.reverse.find? fun p => ys = point (argsOf es p.far xs) p.fs with
      | some p => some (p.val m xs)
      | none => v m ys
  | [], v => rfl
  | p :: l, v => by
    show putBody es l (putOne es m xs v p) (m, xs) m ys = _
    rw [body_find es m xs ys l, List.reverse_cons, List.find?_append]
    cases hf : l.reverse.find? fun p => ys = point (argsOf es p.far xs) p.fs with
    | some q => rfl
    | none =>
      simp only [Option.none_or, putOne, upd, true_and]
      by_cases h : ys = point (argsOf es p.far xs) p.fs <;> simp [h]

theorem hits_of : ∀ (es : List Ext) (ls : List Loc) (bs : List Bool) (fs : List FL) (xs : List Int), es.length = ls.length → bs.length = ls.length →
    FlagsFit ls fs → List.Forall₂ (fun (e : Ext) x => -(e.n : Int) ≤ x ∧ x < e.i + e.p) es xs →
    hits es bs fs (point (argsOf es bs xs) fs) ∧ List.Forall₂ (fun x z => x ≤ z) xs (lastIter es bs fs (point (argsOf es bs xs) fs))
  | [], [], [], [], [], _, _, _, _ => ⟨trivial, .nil⟩
  | e :: es, l :: ls, b :: bs, f :: fs, x :: xs, h1, h2, ⟨h3, h3'⟩, .cons h4 h5 => by
    obtain ⟨g1, g2⟩ := hits_of es ls bs fs xs (by simpa using h1) (by simpa using h2) h3' h5
    refine ⟨⟨?_, g1⟩, .cons ?_ g2⟩
    · unfold hits1; cases b <;> simp <;> omega
    · cases b <;> simp <;> omega
  | [], [], [], _ :: _, _, _, _, h, _ => h.elim
  | [], _ :: _, _, _, _, h, _, _, _ => by simp at h
  | _ :: _, [], _, _, _, h, _, _, _ => by simp at h
  | _ :: _, _ :: _, [], _, _, _, h, _, _ => by simp at h
  | [], [], _ :: _, _, _, _, h, _, _ => by simp at h
  | _ :: _, _ :: _, _ :: _, [], _, _, _, h, _ => h.elim

theorem iter_of : ∀ (es : List Ext) (bs : List Bool) (fs : List FL) (ys : List Int), hits es bs fs ys →
    List.Forall₂ (fun (e : Ext) x => -(e.n : Int) ≤ x ∧ x < e.i + e.p) es (lastIter es bs fs ys) ∧ ys = point (argsOf es bs (lastIter es bs fs ys)) fs
  | [], [], [], [], _ => ⟨.nil, rfl⟩
  | e :: es, b :: bs, f :: fs, y :: ys, ⟨h1, h2⟩ => by
    obtain ⟨g1, g2⟩ := iter_of es bs fs ys h2
    unfold hits1 at h1
    refine ⟨.cons ?_ g1, ?_⟩
    · cases b <;> simp at h1 ⊢ <;> omega
    · simp only [lastIter, argsOf, point]
      rw [← g2]
      congr 1
      cases b <;> simp at h1 ⊢ <;> omega
  | [], [], [], _ :: _, h | [], [], _ :: _, _, h | [], _ :: _, _, _, h | _ :: _, [], _, _, h | _ :: _, _ :: _, [], _, h | _ :: _, _ :: _, _ :: _, [], h => by
    simp [hits] at h

/-! ## Order -/

theorem lex_irrefl : ∀ (a : List Int), ¬ List.Lex intLt a a
  | [], h => by cases h
  | x :: a, h => by
    cases h with
    | rel h => exact absurd h (by unfold intLt; omega)
    | cons h => exact lex_irrefl a h

theorem le_lex : ∀ {a b : List Int}, List.Forall₂ (fun x z => x ≤ z) a b → a = b ∨ List.Lex intLt a b
  | _, _, .nil => .inl rfl
  | x :: a, z :: b, .cons h1 h2 => by
    by_cases h : x = z
    · subst h
      rcases le_lex h2 with rfl | h
      · exact .inl rfl
      · exact .inr (.cons h)
    · exact .inr (.rel (by unfold intLt; omega))

theorem lex_trans : ∀ {a b c : List Int}, List.Lex intLt a b → List.Lex intLt b c → List.Lex intLt a c
  | _, _, _, .nil, .rel _ => .nil
  | _, _, _, .nil, .cons _ => .nil
  | _, _, _, .rel h, .rel h' => .rel (by unfold intLt at *; omega)
  | _, _, _, .rel h, .cons _ => .rel h
  | _, _, _, .cons _, .rel h => .rel h
  | _, _, _, .cons h, .cons h' => .cons (lex_trans h h')

theorem sorted_loopPts (N : Nat) (R : List (Int × Int)) :
    (loopPts ⟨some (0, N), [], R⟩).Pairwise fun a b => a.1 < b.1 ∨ a.1 = b.1 ∧ List.Lex intLt a.2 b.2 := by
  show ((List.range (N - 0)).flatMap fun t => (gridPts R).map fun xs => (t + 0, xs)).Pairwise _
  rw [List.pairwise_flatMap]
  refine ⟨fun t _ => ?_, ?_⟩
  · rw [List.pairwise_map]; exact (sorted_gridPts R).imp fun h => .inr ⟨rfl, h⟩
  · refine List.pairwise_lt_range.imp fun {a b} hab p hp q hq => ?_
    simp only [List.mem_map] at hp hq
    obtain ⟨_, -, rfl⟩ := hp
    obtain ⟨_, -, rfl⟩ := hq
    exact .inl (by simpa using hab)

theorem mem_loopPts {N n : Nat} {R : List (Int × Int)} {xs : List Int} :
    (n, xs) ∈ loopPts ⟨some (0, N), [], R⟩ ↔ n < N ∧ List.Forall₂ (fun (r : Int × Int) x => r.1 ≤ x ∧ x < r.1 + r.2) R xs := by
  show (n, xs) ∈ ((List.range (N - 0)).flatMap fun t => (gridPts R).map fun xs => (t + 0, xs)) ↔ _
  simp only [List.mem_flatMap, List.mem_map, List.mem_range, Prod.mk.injEq, ← mem_gridPts]
  constructor
  · rintro ⟨t, ht, ys, hys, rfl, rfl⟩; exact ⟨by omega, hys⟩
  · rintro ⟨h1, h2⟩; exact ⟨n, by omega, xs, h2, rfl, rfl⟩

theorem zones_all : ∀ (es : List Ext) (xs : List Int),
    List.Forall₂ (fun (r : Int × Int) x => r.1 ≤ x ∧ x < r.1 + r.2) (tagZones es (List.replicate es.length .ALL)) xs ↔
      List.Forall₂ (fun (e : Ext) x => -(e.n : Int) ≤ x ∧ x < e.i + e.p) es xs
  | [], xs => by simp [tagZones]
  | e :: es, [] => by simp [tagZones, List.replicate_succ]
  | e :: es, x :: xs => by
    simp only [List.length_cons, List.replicate_succ, tagZones, List.forall₂_cons, zones_all es xs, tagBegin, tagEnd]
    constructor <;> rintro ⟨h1, h2⟩ <;> exact ⟨by omega, h2⟩

end Verif
