import Verif.Spec.XmlEntities
import Verif.Proof.XmlDoc3
import Verif.Proof.XmlExact1
/-!
# Helper lemmas: documents that leave entities as they are
-/
namespace Verif
open Tec Spec Xml

/-! ## one reader -/

theorem parseAttrsE_true (f : Nat) : ∀ (as : List (Str × Str)) (p : Str), parseAttrsE true f as p = parseAttrs f as p := by
  induction f with
  | zero => intro as p; rfl
  | succ f ih =>
    intro as p
    rw [parseAttrsE, parseAttrs]
    simp only [ih]; rfl

theorem parseTagE_true (p : Str) : parseTagE true p = parseTag p := by
  unfold parseTagE parseTag
  simp only [parseAttrsE_true]; rfl

theorem parseNodesE_true (f : Nat) : ∀ (doc : Bool) (cs : List Node) (p : Str), parseNodesE true f doc cs p = parseNodes f doc cs p := by
  induction f with
  | zero => intro doc cs p; rfl
  | succ f ih =>
    intro doc cs p
    rw [parseNodesE, parseNodes]
    simp only [ih, parseTagE_true]; rfl

theorem parseE_true (c : Str) : parseE true c = parse c := by
  unfold parseE parse
  simp only [parseNodesE_true]; rfl

theorem acceptE_true :
    (∀ (x : Node) (s : Printer), x.acceptE true s = x.accept s) ∧ ∀ (l : List Node) (s : Printer), acceptAllE true l s = acceptAll l s := by
  constructor
  · intro x
    exact Node.rec (motive_1 := fun x => ∀ s : Printer, x.acceptE true s = x.accept s) (motive_2 := fun l => ∀ s : Printer, acceptAllE true l s = acceptAll l s)
      (fun n as cs ih s => by rw [Node.acceptE, Node.accept]; simp only [ih]; rfl)
      (fun c v s => rfl) (fun v s => rfl) (fun v s => rfl) (fun v s => rfl) (fun s => rfl)
      (fun x l ihx ihl s => by rw [acceptAllE, acceptAll]; simp only [ihx, ihl]) x
  · intro l
    exact Node.rec_1 (motive_1 := fun x => ∀ s : Printer, x.acceptE true s = x.accept s) (motive_2 := fun l => ∀ s : Printer, acceptAllE true l s = acceptAll l s)
      (fun n as cs ih s => by rw [Node.acceptE, Node.accept]; simp only [ih]; rfl)
      (fun c v s => rfl) (fun v s => rfl) (fun v s => rfl) (fun v s => rfl) (fun s => rfl)
      (fun x l ihx ihl s => by rw [acceptAllE, acceptAll]; simp only [ihx, ihl]) l

theorem foldl_blank (as : List (Str × Str)) : ∀ s : Printer,
    as.foldl (Printer.pushAttributeE false) s = (as.map fun a => (a.1, ([] : Str))).foldl Printer.pushAttribute s := by
  induction as with
  | nil => intro s; rfl
  | cons a as ih => intro s; exact ih _

theorem acceptE_false (l : List Node) : ∀ s : Printer, acceptAllE false l s = acceptAll (textsAll (fun _ => []) l) s :=
  Node.rec_1 (motive_1 := fun x => ∀ s : Printer, x.acceptE false s = (x.texts fun _ => []).accept s)
    (motive_2 := fun l => ∀ s : Printer, acceptAllE false l s = acceptAll (textsAll (fun _ => []) l) s)
    (fun n as cs ih s => by rw [Node.acceptE, Node.texts, Node.accept]; simp only [ih, foldl_blank])
    (fun c v s => by cases c <;> rfl) (fun v s => rfl) (fun v s => rfl) (fun v s => rfl) (fun s => rfl)
    (fun x l ihx ihl s => by rw [acceptAllE, textsAll, acceptAll]; simp only [ihx, ihl]) l

/-! ## what is read, before the values are processed -/

theorem textsAll_eq (f : Str → Str) (l : List Node) : textsAll f l = l.map (Node.texts f) := by
  induction l with
  | nil => rfl
  | cons x l ih => rw [textsAll, ih]; rfl

theorem textsAll_snoc (f : Str → Str) (l : List Node) (x : Node) : textsAll f (l ++ [x]) = textsAll f l ++ [x.texts f] := by
  simp [textsAll_eq]

theorem isDecl_texts (f : Str → Str) (l : List Node) : (textsAll f l).all Node.isDecl = l.all Node.isDecl := by
  rw [textsAll_eq, List.all_map]
  congr 1
  funext x
  cases x <;> rfl

mutual
/-- the bytes of the values are such -/
def MadeOf (Q : Byte → Prop) : Node → Prop
  | .elem _ as cs => (∀ a ∈ as, ∀ b ∈ a.2, Q b) ∧ MadeOfAll Q cs
  | .text c v => c = false → ∀ b ∈ v, Q b
  | _ => True
def MadeOfAll (Q : Byte → Prop) : List Node → Prop
  | [] => True
  | x :: l => MadeOf Q x ∧ MadeOfAll Q l
end

theorem madeOf_snoc {Q : Byte → Prop} {x : Node} : ∀ {l : List Node}, MadeOfAll Q l → MadeOf Q x → MadeOfAll Q (l ++ [x])
  | [], _, hx => ⟨hx, trivial⟩
  | _ :: _, hl, hx => ⟨hl.1, madeOf_snoc hl.2 hx⟩

theorem texts_congr {Q : Byte → Prop} {f g : Str → Str} (E : ∀ v, (∀ b ∈ v, Q b) → f v = g v) (l : List Node) : MadeOfAll Q l → textsAll f l = textsAll g l :=
  Node.rec_1 (motive_1 := fun x => MadeOf Q x → x.texts f = x.texts g) (motive_2 := fun l => MadeOfAll Q l → textsAll f l = textsAll g l)
    (fun n as cs ih h => by
      rw [MadeOf] at h
      rw [Node.texts, Node.texts, ih h.2]
      congr 1
      exact List.map_congr_left fun a ha => by rw [E _ (h.1 a ha)])
    (fun c v h => by
      rw [MadeOf] at h
      cases c with
      | true => rfl
      | false => simp [Node.texts, E v (h rfl)])
    (fun v _ => rfl) (fun v _ => rfl) (fun v _ => rfl) (fun _ => rfl)
    (fun x l ihx ihl h => by rw [MadeOfAll] at h; rw [textsAll, textsAll, ihx h.1, ihl h.2]) l

/-- an attribute and its processed value -/
def cooked (pe : Bool) (a : Str × Str) : Str × Str := (a.1, value pe a.2)

theorem identify_sub {p q : Str} {k : Xml.Kind} (h : identify p = some (k, q)) : q ⊆ p := (identify_some h).1.subset

theorem parseName_sub {p n r : Str} (h : parseName p = some (n, r)) : r ⊆ p := by
  cases p with
  | nil => cases h
  | cons b l =>
    rw [parseName] at h
    split at h
    · cases h; exact fun x hx => List.mem_cons_of_mem _ ((List.dropWhile_suffix _).subset hx)
    · cases h

theorem parseText_sub {tag p v r : Str} (h0 : tag ≠ []) (h : parseText tag p = some (v, r)) : v ⊆ p ∧ r ⊆ p := by
  have e := (parseText_some h0 h).1
  subst e
  exact ⟨fun b hb => by simp [hb], fun b hb => by simp [hb]⟩

section
variable {Q : Byte → Prop}

theorem parseAttrE_raw (p : Str) (hp : ∀ b ∈ p, Q b) :
    (∀ pe, parseAttrE pe p = none) ∨ ∃ (a : Str × Str) (r : Str), (∀ b ∈ a.2, Q b) ∧ (∀ b ∈ r, Q b) ∧ ∀ pe, parseAttrE pe p = some (cooked pe a, r) := by
  unfold parseAttrE
  cases e1 : parseName p with
  | none => exact .inl fun _ => rfl
  | some x =>
    obtain ⟨n, p1⟩ := x
    have h1 := fun b hb => hp b (parseName_sub e1 hb)
    dsimp only
    have h2 := fun b hb => h1 b ((skipSpace_suffix p1).subset hb)
    cases e2 : skipSpace p1 with
    | nil => exact .inl fun _ => rfl
    | cons c p2 =>
      rw [e2] at h2
      split
      · rename_i q2 e
        cases e
        have h3 := fun b hb => h2 b (List.mem_cons_of_mem _ ((skipSpace_suffix p2).subset hb))
        cases e3 : skipSpace p2 with
        | nil => exact .inl fun _ => rfl
        | cons q p3 =>
          rw [e3] at h3
          dsimp only
          by_cases hq : q = 34 ∨ q = 39
          · simp only [if_pos hq]
            cases e4 : parseText [q] p3 with
            | none => exact .inl fun _ => rfl
            | some y =>
              obtain ⟨v, r⟩ := y
              obtain ⟨s1, s2⟩ := parseText_sub (by simp) e4
              exact .inr ⟨(n, v), r, fun b hb => h3 b (List.mem_cons_of_mem _ (s1 hb)), fun b hb => h3 b (List.mem_cons_of_mem _ (s2 hb)), fun _ => rfl⟩
          · simp only [if_neg hq]; exact .inl fun _ => by trivial
      · exact .inl fun _ => rfl

theorem any_cooked (pe : Bool) (as : List (Str × Str)) (n : Str) : (as.map (cooked pe)).any (fun x => x.1 == n) = as.any (fun x => x.1 == n) := by
  rw [List.any_map]; rfl

theorem parseAttrsE_raw (f : Nat) : ∀ (as : List (Str × Str)) (p : Str), (∀ b ∈ p, Q b) → (∀ a ∈ as, ∀ b ∈ a.2, Q b) →
    (∃ e, ∀ pe, parseAttrsE pe f (as.map (cooked pe)) p = .error e) ∨
    ∃ (bs : List (Str × Str)) (c : Bool) (r : Str), (∀ a ∈ bs, ∀ b ∈ a.2, Q b) ∧ (∀ b ∈ r, Q b) ∧ ∀ pe, parseAttrsE pe f (as.map (cooked pe)) p = .ok (bs.map (cooked pe), c, r) := by
  induction f with
  | zero => intro as p _ _; exact .inl ⟨_, fun _ => rfl⟩
  | succ f ih =>
    intro as p hp ha
    simp only [parseAttrsE]
    have h1 := fun b hb => hp b ((skipSpace_suffix p).subset hb)
    cases e1 : skipSpace p with
    | nil => exact .inl ⟨_, fun _ => rfl⟩
    | cons c l =>
      rw [e1] at h1
      dsimp only
      have hl : ∀ b ∈ l, Q b := fun b hb => h1 b (List.mem_cons_of_mem _ hb)
      by_cases hc : isNameStart c = true
      · simp only [if_pos hc]
        rcases parseAttrE_raw (c :: l) h1 with e | ⟨a, r, q1, q2, e⟩
        · simp only [e]; exact .inl ⟨_, fun _ => rfl⟩
        · simp only [e]
          have hn : ∀ pe, (cooked pe a).1 = a.1 := fun _ => rfl
          simp only [hn, any_cooked]
          by_cases hd : as.any (fun x => x.1 == a.1) = true
          · simp only [if_pos hd]; exact .inl ⟨_, fun _ => by trivial⟩
          · simp only [if_neg hd]
            have := ih (as ++ [a]) r q2 (fun x hx => by
              rcases List.mem_append.1 hx with hx | hx
              · exact ha x hx
              · cases List.mem_singleton.1 hx; exact q1)
            simpa only [List.map_append, List.map_cons, List.map_nil] using this
      · simp only [if_neg hc]
        by_cases h62 : c = 62
        · simp only [if_pos h62]; exact .inr ⟨as, false, l, ha, hl, fun _ => by trivial⟩
        · simp only [if_neg h62]
          by_cases h47 : c = 47
          · simp only [if_pos h47]
            split
            · rename_i r; exact .inr ⟨as, true, r, ha, fun b hb => hl b (List.mem_cons_of_mem _ hb), fun _ => rfl⟩
            · exact .inl ⟨_, fun _ => rfl⟩
          · simp only [if_neg h47]; exact .inl ⟨_, fun _ => by trivial⟩

theorem parseTagE_raw (p : Str) (hp : ∀ b ∈ p, Q b) :
    (∃ e, ∀ pe, parseTagE pe p = .error e) ∨
    ∃ (n : Str) (bs : List (Str × Str)) (c : Closing) (r : Str), (∀ a ∈ bs, ∀ b ∈ a.2, Q b) ∧ (∀ b ∈ r, Q b) ∧ ∀ pe, parseTagE pe p = .ok (n, bs.map (cooked pe), c, r) := by
  unfold parseTagE
  dsimp only
  have h1 := fun b hb => hp b ((skipSpace_suffix p).subset hb)
  have h2 : ∀ b ∈ (strip [47] (skipSpace p)).getD (skipSpace p), Q b := by
    cases e : strip [47] (skipSpace p) with
    | none => exact h1
    | some q => exact fun b hb => h1 b ((strip_suffix e).subset hb)
  cases e1 : parseName ((strip [47] (skipSpace p)).getD (skipSpace p)) with
  | none => exact .inl ⟨_, fun _ => rfl⟩
  | some x =>
    obtain ⟨n, p1⟩ := x
    have h3 := fun b hb => h2 b (parseName_sub e1 hb)
    dsimp only
    rcases parseAttrsE_raw (p1.length + 1) [] p1 h3 (by simp) with ⟨e, h⟩ | ⟨bs, c, r, q1, q2, h⟩
    · simp only [List.map_nil] at h; simp only [h]; exact .inl ⟨_, fun _ => rfl⟩
    · simp only [List.map_nil] at h; simp only [h]; exact .inr ⟨n, bs, _, r, q1, q2, fun _ => rfl⟩

theorem parseNodesE_raw (f : Nat) : ∀ (doc : Bool) (cs : List Node) (p : Str), (∀ b ∈ p, Q b) → MadeOfAll Q cs →
    (∃ e, ∀ pe, parseNodesE pe f doc (textsAll (value pe) cs) p = .failed e) ∨
    (∃ ds, MadeOfAll Q ds ∧ ∀ pe, parseNodesE pe f doc (textsAll (value pe) cs) p = .atEnd (textsAll (value pe) ds)) ∨
    ∃ ds n r, MadeOfAll Q ds ∧ (∀ b ∈ r, Q b) ∧ ∀ pe, parseNodesE pe f doc (textsAll (value pe) cs) p = .byTag (textsAll (value pe) ds) n r := by
  induction f with
  | zero => intro doc cs p _ h; exact .inr (.inl ⟨cs, h, fun _ => rfl⟩)
  | succ f ih =>
    intro doc cs p hp hc
    simp only [parseNodesE]
    cases e1 : identify p with
    | none => exact .inr (.inl ⟨cs, hc, fun _ => rfl⟩)
    | some x =>
      obtain ⟨k, q⟩ := x
      have hq := fun b hb => hp b (identify_sub e1 hb)
      have go : ∀ (x : Node) (r : Str), (∀ b ∈ r, Q b) → MadeOf Q x → _ := fun x r hr hx => ih doc (cs ++ [x]) r hr (madeOf_snoc hc hx)
      simp only [textsAll_snoc] at go
      cases k with
      | comment =>
        dsimp only
        cases e2 : parseText (lit "-->") q with
        | none => exact .inl ⟨_, fun _ => rfl⟩
        | some y =>
          obtain ⟨v, r⟩ := y
          exact go (.comment (value false v)) r (fun b hb => hq b ((parseText_sub (by decide) e2).2 hb)) trivial
      | decl =>
        dsimp only
        cases e2 : parseText (lit "?>") q with
        | none => exact .inl ⟨_, fun _ => rfl⟩
        | some y =>
          obtain ⟨v, r⟩ := y
          dsimp only
          simp only [isDecl_texts]
          by_cases hd : (doc && cs.all Node.isDecl) = true
          · simp only [if_pos hd]
            exact go (.decl (value false v)) r (fun b hb => hq b ((parseText_sub (by decide) e2).2 hb)) trivial
          · simp only [if_neg hd]; exact .inl ⟨_, fun _ => by trivial⟩
      | cdata =>
        dsimp only
        cases e2 : parseText (lit "]]>") q with
        | none => exact .inl ⟨_, fun _ => rfl⟩
        | some y =>
          obtain ⟨v, r⟩ := y
          exact go (.text true (value false v)) r (fun b hb => hq b ((parseText_sub (by decide) e2).2 hb)) (fun h => by cases h)
      | unknown =>
        dsimp only
        cases e2 : parseText (lit ">") q with
        | none => exact .inl ⟨_, fun _ => rfl⟩
        | some y =>
          obtain ⟨v, r⟩ := y
          exact go (.unknown (value false v)) r (fun b hb => hq b ((parseText_sub (by decide) e2).2 hb)) trivial
      | text =>
        dsimp only
        cases e2 : parseText (lit "<") q with
        | none => exact .inl ⟨_, fun _ => rfl⟩
        | some y =>
          obtain ⟨v, r⟩ := y
          have ee := (parseText_some (by decide) e2).1
          dsimp only
          by_cases hr : r = []
          · simp only [if_pos hr]; exact .inl ⟨_, fun _ => by trivial⟩
          · simp only [if_neg hr]
            refine go (.text false v) (60 :: r) (fun b hb => hq b ?_) (fun _ b hb => hq b ((parseText_sub (by decide) e2).1 hb))
            rw [ee]
            exact List.mem_append_right _ hb
      | elem =>
        dsimp only
        rcases parseTagE_raw q hq with ⟨e, h⟩ | ⟨n, bs, c, r, q1, q2, h⟩
        · simp only [h]; exact .inl ⟨_, fun _ => rfl⟩
        · simp only [h]
          cases c with
          | closing => exact .inr (.inr ⟨cs, n, r, hc, q2, fun _ => rfl⟩)
          | closed => exact go (.elem n bs []) r q2 ⟨q1, trivial⟩
          | opened =>
            dsimp only
            by_cases hr : r = []
            · simp only [if_pos hr]; exact .inl ⟨_, fun _ => by trivial⟩
            · simp only [if_neg hr]
              rcases ih false [] r q2 trivial with ⟨e, h⟩ | ⟨ds, -, h⟩ | ⟨ds, m, r', hd, hr', h⟩
              · simp only [textsAll] at h; simp only [h]; exact .inl ⟨_, fun _ => rfl⟩
              · simp only [textsAll] at h; simp only [h]; exact .inl ⟨_, fun _ => rfl⟩
              · simp only [textsAll] at h; simp only [h]
                by_cases hm : m = n
                · simp only [if_pos hm]; exact go (.elem n bs ds) r' hr' ⟨q1, hd⟩
                · simp only [if_neg hm]; exact .inl ⟨_, fun _ => by trivial⟩

theorem parseE_raw (c : Str) (hp : ∀ b ∈ cstr c, Q b) :
    (∃ e, ∀ pe, parseE pe c = .error e) ∨ ∃ ds, MadeOfAll Q ds ∧ ∀ pe, parseE pe c = .ok (textsAll (value pe) ds) := by
  unfold parseE
  dsimp only
  have h1 := fun b hb => hp b ((skipSpace_suffix (cstr c)).subset hb)
  have h2 : ∀ b ∈ (strip [0xEF, 0xBB, 0xBF] (skipSpace (cstr c))).getD (skipSpace (cstr c)), Q b := by
    cases e : strip [0xEF, 0xBB, 0xBF] (skipSpace (cstr c)) with
    | none => exact h1
    | some q => exact fun b hb => h1 b ((strip_suffix e).subset hb)
  generalize (strip [0xEF, 0xBB, 0xBF] (skipSpace (cstr c))).getD (skipSpace (cstr c)) = p at h2
  by_cases h0 : p = []
  · simp only [if_pos h0]; exact .inl ⟨_, fun _ => by trivial⟩
  · simp only [if_neg h0]
    rcases parseNodesE_raw p.length true [] p h2 trivial with ⟨e, h⟩ | ⟨ds, hd, h⟩ | ⟨ds, m, r', hd, hr', h⟩
    all_goals simp only [textsAll] at h; simp only [h]
    · exact .inl ⟨_, fun _ => rfl⟩
    · exact .inr ⟨ds, hd, fun _ => rfl⟩
    · exact .inr ⟨ds, hd, fun _ => rfl⟩

end

/-! ## text without `&` -/

theorem cook_noAmp (orig : Str) : ∀ (f : Nat) (out l : Str), 38 ∉ l → cook true orig f out l = cook false orig f out l := by
  intro f
  induction f with
  | zero => intro out l _; cases l <;> rfl
  | succ f ih =>
    intro out l h
    cases l with
    | nil => rfl
    | cons b l =>
      have hb : b ≠ 38 := fun e => h (by simp [e])
      have hl : 38 ∉ l := fun e => h (List.mem_cons_of_mem _ e)
      cases l with
      | nil => simp [cook, hb]
      | cons x l =>
        have h2 : 38 ∉ l := fun e => hl (List.mem_cons_of_mem _ e)
        have e1 := fun out => ih out (x :: l) hl
        have e2 := fun out => ih out l h2
        by_cases h13 : b = 13
        · subst h13
          by_cases hx : x = 10
          · subst hx; simp [cook, e2]
          · simp [cook, hx, e1]
        · by_cases h10 : b = 10
          · subst h10
            by_cases hx : x = 13
            · subst hx; simp [cook, e2]
            · simp [cook, hx, e1]
          · simp [cook, hb, h13, h10, e1]

theorem value_noAmp {v : Str} (h : 38 ∉ v) : value true v = value false v := by
  unfold value; rw [cook_noAmp _ _ _ _ h]

end Verif
