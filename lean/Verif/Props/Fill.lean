import Verif.Proof.Fill
import Verif.Props.Access
/-!
# C47: filling virtual points
-/
namespace Verif.Props
open Spec
variable {V : Type} {mem : Nat → Nat → Bool} {chk : Bool} {w : World V} {aw : AWorld V}

/-- C47: `PD_For_?D(x.size().range(ts...), x(n,..,i,..) = f(x(n,..,source(i),..)))`, where in
dimension `d` the tag is the one of the side, fewer virtual than interior points lie on that
side, and all other tags are arbitrary.  The loop runs through.  Each point of the zones is a
valid element, its source has the same indices except in dimension `d`, where it is interior;
afterwards the point reads as `f` of the value the source had before, and the source still reads
the same.  Every other element of every array reads as before and no array changes its
sizes.  `2 * (n + i + p)` must be an `int` for mirror sources, see C16. -/
theorem C47 (R : Reach mem chk w aw) (c : Bool) {x : Nat} {k : Kind} {es : List Ext} {val : Nat → List Int → Option V}
    (hx : aw.arr x = some (k, .ready es val)) (how : From) {d : Nat} {e : Ext} (he : es[d]? = some e) (fl : Side)
    (hm : how = .mirror → 2 * (e.n + e.i + e.p) < 2147483648) (hs : sideCount e fl < e.i)
    {ts : List RA} (hl : ts.length = es.length) (ht : ts[d]? = some (sideTag fl)) {n : Nat} (hn : n < k.N) {fs : List FL}
    (hf : FlagsFit k.locs fs) (f : V → V) :
    ∃ w', World.fill c x how d fl ts n fs f w = .ok () w' ∧
      (∀ xs, InTags es ts xs → Valid k es n xs fs ∧ Virtual e fl (xs.getD d 0) ∧
        Interior e (srcIdx how e fl (xs.getD d 0)) ∧
        Valid k es n (xs.set d (srcIdx how e fl (xs.getD d 0))) fs ∧
        ∀ c', ∃ b, exec c' (.read x n (xs.set d (srcIdx how e fl (xs.getD d 0))) fs) w = .ok (.val b) w ∧
          exec c' (.read x n xs fs) w' = .ok (.val (b.map f)) w' ∧
          exec c' (.read x n (xs.set d (srcIdx how e fl (xs.getD d 0))) fs) w' = .ok (.val b) w') ∧
      (∀ y k' es' val', aw.arr y = some (k', .ready es' val') → ∀ m ys gs, Valid k' es' m ys gs →
        ¬ (y = x ∧ m = n ∧ ∃ xs, InTags es ts xs ∧ point xs fs = point ys gs) →
        ∀ c', ∃ b, exec c' (.read y m ys gs) w = .ok (.val b) w ∧ exec c' (.read y m ys gs) w' = .ok (.val b) w') ∧
      (∀ y k' a', aw.arr y = some (k', a') → ∀ c', ∃ l,
        exec c' (.size y) w = .ok (.sizes l) w ∧ exec c' (.size y) w' = .ok (.sizes l) w') := by
  obtain ⟨L, R⟩ := R.rel
  obtain ⟨w', h1, R'⟩ := R.fill c hx how he fl hm hs hl ht hn hf f
  have hle := R.len hx
  obtain ⟨o, -, -, -, r⟩ := R.arr_some hx
  have rd : ∀ (m : Nat) (ys : List Int) (gs : List FL), Valid k es m ys gs → ∀ c',
      exec c' (.read x m ys gs) w' = .ok (.val (fillVal how d e fl es ts n fs f val m (point ys gs))) w' :=
    fun m ys gs v c' => R'.read c' (x := x) (by simp only [AWorld.set, if_true]) v
  have src : ∀ xs, InTags es ts xs → Interior e (srcIdx how e fl (xs.getD d 0)) := by
    intro xs h
    have h1 := h.at he ht
    cases how <;> cases fl <;> simp only [srcIdx, sideBound, sideTag, sideCount, InTag, Interior] at * <;> omega
  have apart : ∀ xs ys, InTags es ts xs → InTags es ts ys →
      point ys fs ≠ point (xs.set d (srcIdx how e fl (xs.getD d 0))) fs := by
    intro xs ys h1 h2 heq
    have l := FlagsFit.len hf
    have e1 := point_inj (by rw [h2.len, hle, l]) (by rw [List.length_set, h1.len, hle, l]) heq
    have hy := h2.at he ht
    have hi := src xs h1
    have hd : d < xs.length := by rw [h1.len]; exact (List.getElem?_eq_some_iff.1 he).1
    rw [e1, List.getD_eq_getElem?_getD, List.getElem?_set_self hd] at hy
    simp only [Option.getD_some] at hy
    unfold Interior at hi
    cases fl <;> simp only [sideTag, InTag] at hy <;> omega
  refine ⟨w', h1, ?_, ?_, ?_⟩
  · intro xs hxs
    have v := hxs.valid hle hn hf
    have vs := (hxs.set he (t := .IN) (src xs hxs)).valid hle hn hf
    refine ⟨v, ?_, src xs hxs, vs, fun c' => ⟨_, R.read c' hx vs, ?_, ?_⟩⟩
    · have := hxs.at he ht
      cases fl <;> simpa only [Virtual, sideTag, InTag] using this
    · rw [rd _ _ _ v, fillVal_at hxs (by rw [v.lenf, hle])]
    · rw [rd _ _ _ vs, fillVal_else]
      rintro ⟨-, ys, h2, h3⟩
      exact apart xs ys hxs h2 h3
  · intro y k' es' val' hy m ys gs v' hne c'
    refine ⟨_, R.read c' hy v', ?_⟩
    by_cases hyx : y = x
    · subst hyx
      rw [hx] at hy; cases hy
      rw [rd _ _ _ v', fillVal_else (fun h => hne ⟨rfl, h⟩)]
    · exact R'.read c' (x := y) (by simp only [AWorld.set, if_neg hyx]; exact hy) v'
  · intro y k' a' hy c'
    refine ⟨_, R.size c' hy, ?_⟩
    by_cases hyx : y = x
    · subst hyx
      rw [hx] at hy; cases hy
      have := R'.size c' (x := y) (by simp only [AWorld.set, if_true]; rfl)
      exact this
    · exact R'.size c' (x := y) (by simp only [AWorld.set, if_neg hyx]; exact hy)

/-- a 2D array with two virtual points on either side of the second dimension -/
def fillOps : List (Op Int) :=
  [.makeSized 0 ⟨1, [.center, .half]⟩ (fun _ => .null) [⟨0, 1, 0⟩, ⟨2, 3, 2⟩],
   .write 0 0 [0, 0] [.C, .N] 5, .write 0 0 [0, 1] [.C, .N] 6, .write 0 0 [0, 2] [.C, .N] 7]

/-- the values `f` puts to the indices -2 .. 4 of that array -/
def fillRun (how : From) (fl : Side) : Option (List (Option Int)) :=
  match run true fillOps (World.init fun _ _ => true) with
  | some (_, w) =>
    match World.fill true 0 how 1 fl [.IN, sideTag fl] 0 [.C, .N] (fun v => -v) w with
    | .ok _ w' => some <| [-2, -1, 0, 1, 2, 3, 4].map fun i =>
        match exec true (.read 0 0 [0, i] [.C, .N]) w' with
        | .ok (.val b) _ => b
        | _ => some 99
    | _ => none
  | none => none

/-- the hypotheses of C47 hold of this array, and what the four fillings give -/
example : (∃ (w : World Int) (aw : AWorld Int) (val : _), Reach (fun _ _ => true) true w aw ∧
      aw.arr 0 = some (⟨1, [.center, .half]⟩, .ready [⟨0, 1, 0⟩, ⟨2, 3, 2⟩] val)) ∧
    sideCount ⟨2, 3, 2⟩ .N < 3 ∧ FlagsFit [.center, .half] [.C, .N] ∧ InTags [⟨0, 1, 0⟩, ⟨2, 3, 2⟩] [.IN, .N] [0, -2] ∧
    fillRun .mirror .N = some [some (-7), some (-6), some 5, some 6, some 7, none, none] ∧
    fillRun .mirror .P = some [none, none, some 5, some 6, some 7, some (-6), some (-5)] ∧
    fillRun .periodic .N = some [some (-5), some (-6), some 5, some 6, some 7, none, none] ∧
    fillRun .periodic .P = some [none, none, some 5, some 6, some 7, some (-6), some (-7)] := by
  refine ⟨?_, by decide, ⟨rfl, rfl, trivial⟩, by simp [InTags, InTag], by decide +kernel, by decide +kernel, by decide +kernel,
    by decide +kernel⟩
  obtain ⟨evs, aw, val, h, h0⟩ : ∃ evs aw val, arun (fun _ _ => true) true fillOps AWorld.init = some (evs, aw) ∧
      aw.arr 0 = some (⟨1, [.center, .half]⟩, .ready [⟨0, 1, 0⟩, ⟨2, 3, 2⟩] val) := ⟨_, _, _, rfl, rfl⟩
  obtain ⟨w, R⟩ := reach_of_arun h
  exact ⟨w, aw, val, R, h0⟩

/-- C47: the number of virtual points matters.  With as many virtual as interior points mirror
filling leaves the interior: in this array the source of index -2 is index 2, which is not
stored, and the checked build throws. -/
theorem C47_count : sideCount ⟨2, 2, 0⟩ .N = 2 ∧
    (match run true [.makeSized 0 ⟨1, [.center]⟩ (fun _ => .null) [⟨2, 2, 0⟩]] (World.init (V := Int) fun _ _ => true) with
      | some (_, w) =>
        match World.fill true 0 .mirror 0 .N [.N] 0 [.C] (fun v => v) w with
        | .err er _ => some er
        | _ => none
      | none => none) = some (.rangeCenter 0 2 (-2) 1) := by
  refine ⟨rfl, ?_⟩
  decide +kernel

end Verif.Props
