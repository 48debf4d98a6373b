import Verif.Proof.XmlDoc1
import Verif.Model.Xml.Printer
/-!
# What the printer writes
-/
namespace Verif.Xml
open Tec Spec

theorem entity_stop {restricted : Bool} {stop : UInt8} (h : restricted = false ∧ stop = 34 ∨ restricted = true ∧ stop = 60) {b : UInt8}
    (hb : Printer.entityOf restricted b = none) : b ≠ 38 ∧ b ≠ stop := by
  unfold Printer.entityOf at hb
  rcases h with ⟨rfl, rfl⟩ | ⟨rfl, rfl⟩ <;>
  · refine ⟨?_, ?_⟩ <;> rintro rfl <;> revert hb <;> decide

theorem entity_table {restricted : Bool} {b : UInt8} {e : Str} (h : Printer.entityOf restricted b = some e) : (lit "&" ++ e ++ lit ";", b) ∈ entityTable := by
  unfold Printer.entityOf at h
  split at h
  · next hb => subst hb; cases h; decide
  split at h
  · next hb => subst hb; cases h; decide
  split at h
  · next hb => subst hb; cases h; decide
  split at h
  · cases h
  split at h
  · next hb => subst hb; cases h; decide
  split at h
  · next hb => subst hb; cases h; decide
  · cases h

/-- what the printer writes for a text -/
def shown (restricted : Bool) (v : Str) : Str := v.flatMap fun b =>
  match Printer.entityOf restricted b with
  | some e => lit "&" ++ e ++ lit ";"
  | none => [b]

theorem shown_cons (restricted : Bool) (b : UInt8) (v : Str) : shown restricted (b :: v) =
    (match Printer.entityOf restricted b with
    | some e => lit "&" ++ e ++ lit ";"
    | none => [b]) ++ shown restricted v := by simp only [shown, List.flatMap_cons]

theorem string_shown {restricted : Bool} {v : Str} : ∀ run : Str, run.length + v.length ≤ 2147483647 → Printer.string restricted run v = run ++ shown restricted v := by
  induction v with
  | nil =>
    intro run hl
    rw [Printer.string, List.take_of_length_le (by simpa using hl)]
    simp [shown]
  | cons b v ih =>
    intro run hl
    rw [Printer.string, shown_cons]
    cases e : Printer.entityOf restricted b with
    | some t => simp only [ih [] (by simp at hl ⊢; omega), List.append_assoc, List.nil_append]
    | none => simp only [ih (run ++ [b]) (by simp at hl ⊢; omega), List.append_assoc, List.singleton_append]

theorem shown_white (restricted : Bool) {b : UInt8} (h : White b) (v : Str) : shown restricted (b :: v) = b :: shown restricted v := by
  rw [shown_cons]
  cases e : Printer.entityOf restricted b with
  | none => rfl
  | some t =>
    have := table_cases (entity_table e)
    obtain ⟨-, -, -, -, -, -, -, h'⟩ := this
    exact absurd h h'

theorem shown_head (restricted : Bool) {b : UInt8} (h : White b) {v : Str} (hv : v.head? ≠ some b) : (shown restricted v).head? ≠ some b := by
  cases v with
  | nil => simp [shown]
  | cons c v =>
    rw [shown_cons]
    cases e : Printer.entityOf restricted c with
    | none => simpa using hv
    | some t =>
      have : b ≠ 38 := by rintro rfl; exact absurd h (by decide)
      simpa [lit] using this.symm

theorem shown_escapes {restricted : Bool} {stop : UInt8} (h : restricted = false ∧ stop = 34 ∨ restricted = true ∧ stop = 60) {v : Str} (hc : ∀ b ∈ v, b ≠ 0) :
    Escapes stop (shown restricted v) (newlines v) := by
  have w10 : White 10 := by decide
  have w13 : White 13 := by decide
  fun_induction newlines v with
  | case1 l ih =>
    rw [shown_white _ w13, shown_white _ w10]
    exact .newline (n := [13, 10]) (.inl rfl) (ih fun b hb => hc b (by simp [hb]))
  | case2 l hl ih =>
    rw [shown_white _ w13]
    refine .newline (n := [13]) (.inr (.inr (.inl ⟨rfl, shown_head _ w10 ?_⟩))) (ih fun b hb => hc b (by simp [hb]))
    intro e
    cases l with
    | nil => cases e
    | cons c l => cases e; exact hl l rfl
  | case3 l ih =>
    rw [shown_white _ w10, shown_white _ w13]
    exact .newline (n := [10, 13]) (.inr (.inl rfl)) (ih fun b hb => hc b (by simp [hb]))
  | case4 b l h1 h2 h3 ih =>
    have ih := ih fun b hb => hc b (by simp [hb])
    by_cases hb : b = 10
    · subst hb
      rw [shown_white _ w10]
      refine .newline (n := [10]) (.inr (.inr (.inr ⟨rfl, shown_head _ w13 ?_⟩))) ih
      intro e
      cases l with
      | nil => cases e
      | cons c l => cases e; exact h3 l rfl rfl
    · rw [shown_cons]
      cases e : Printer.entityOf restricted b with
      | some t => exact .entity (entity_table e) ih
      | none => exact .byte ⟨hc b (by simp), hb, h2, entity_stop h e⟩ ih
  | case5 => exact .nil

theorem newlines_same {v : Str} (h : (13 : UInt8) ∉ v) : newlines v = v := by
  fun_induction newlines v with
  | case1 l ih => simp at h
  | case2 l hl ih => simp at h
  | case3 l ih => simp at h
  | case4 b l h1 h2 h3 ih => rw [ih fun hh => h (by simp [hh])]
  | case5 => rfl

theorem sends {restricted : Bool} {stop : UInt8} (h : restricted = false ∧ stop = 34 ∨ restricted = true ∧ stop = 60) {v : Str} (hv : Sendable v) :
    Escapes stop (Printer.string restricted [] v) v := by
  have := shown_escapes h fun b hb => (hv.1 b hb).1
  rwa [newlines_same fun hh => (hv.1 13 hh).2 rfl, ← List.nil_append (shown restricted v), ← string_shown [] (by simpa using hv.2)] at this

theorem escapes_append {stop : UInt8} {r v r' v' : Str} (h : Escapes stop r v) (h' : Escapes stop r' v') (h1 : r'.head? ≠ some 10 ∧ r'.head? ≠ some 13) :
    Escapes stop (r ++ r') (v ++ v') := by
  induction h with
  | nil => exact h'
  | byte hb _ ih => exact .byte hb ih
  | @newline n raw v hb _ ih =>
    rw [List.append_assoc]
    refine .newline ?_ ih
    have hh : ∀ c, raw.head? ≠ some c → r'.head? ≠ some c → (raw ++ r').head? ≠ some c := by
      intro c e1 e2
      cases raw with
      | nil => exact e2
      | cons a raw => exact e1
    rcases hb with rfl | rfl | ⟨rfl, e⟩ | ⟨rfl, e⟩
    · exact .inl rfl
    · exact .inr (.inl rfl)
    · exact .inr (.inr (.inl ⟨rfl, hh _ e h1.1⟩))
    · exact .inr (.inr (.inr ⟨rfl, hh _ e h1.2⟩))
  | entity hb _ ih => rw [List.append_assoc]; exact .entity hb ih
  | wrong hb _ ih =>
    refine .wrong ?_ ih
    obtain ⟨s, q, h1, h2, ⟨rfl, h4, h5⟩ | ⟨rfl, h4⟩⟩ := hb
    · exact ⟨s, q ++ r', h1, h2, .inl ⟨by simp, h4, h5⟩⟩
    · exact ⟨s, q ++ r', h1, h2, .inr ⟨by simp, h4⟩⟩
  | dropped hb h0 _ ih => rw [List.append_assoc]; exact .dropped hb h0 ih
  | ref hb h0 _ ih => rw [List.append_assoc, List.append_assoc]; exact .ref hb h0 ih

theorem escapes_spaces (n : Nat) : Escapes 60 (List.replicate n 32) (List.replicate n 32) := by
  induction n with
  | zero => exact .nil
  | succ n ih => exact .byte (by decide) ih

/-! ## Attributes -/

/-- the attributes as they are written -/
def rawAttrs (as : List (Str × Str)) : List (Str × Str) := as.map fun a => (a.1, Printer.string false [] a.2)

theorem push_attrs (as : List (Str × Str)) (s : Printer) : as.foldl Printer.pushAttribute s = s.put (attrsText (rawAttrs as)) := by
  induction as generalizing s with
  | nil => simp [Printer.put, attrsText, rawAttrs]
  | cons a as ih =>
    rw [List.foldl_cons, ih]
    simp only [Printer.pushAttribute, Printer.put, rawAttrs, List.map_cons, attrsText, List.flatMap_cons, List.append_assoc]

theorem rawAttrs_writes {as : List (Str × Str)} (h : ∀ a ∈ as, IsName a.1 ∧ Sendable a.2) (hn : (as.map (·.1)).Nodup) : WritesAttrs (rawAttrs as) as := by
  refine ⟨?_, hn⟩
  clear hn
  induction as with
  | nil => exact .nil
  | cons a as ih =>
    exact .cons ⟨rfl, (h a (by simp)).1, sends (.inl ⟨rfl, rfl⟩) (h a (by simp)).2⟩ (ih fun x hx => h x (by simp [hx]))

/-! ## The state -/

/-- inside of `d` elements -/
structure At (d : Nat) (s : Printer) : Prop where
  depth : s.depth = d
  text : s.textDepth < d

/-- `>` when an element is open -/
def sealText (s : Printer) : Str := if s.justOpened then lit ">" else []

theorem seal_eq (s : Printer) : s.sealed = { s with justOpened := false, out := s.out ++ sealText s } := by
  unfold Printer.sealed sealText Printer.put
  split
  · rfl
  · next h => cases s; simp at h; simp [h]

theorem blank_spaces (n : Nat) : Blank (List.replicate n 32) := by
  intro b hb
  rw [(List.mem_replicate.1 hb).2]
  decide

theorem blank_app {a b : Str} (ha : Blank a) (hb : Blank b) : Blank (a ++ b) := fun x hx => (List.mem_append.1 hx).elim (ha x) (hb x)

theorem blank_nl : Blank (lit "\n") := by unfold Blank; decide

theorem blank_none : Blank [] := fun _ h => nomatch h

/-- the state after a node -/
structure Went (d : Nat) (s s' : Printer) : Prop where
  at' : At d s'
  stack : s'.stack = s.stack
  compact : s'.compact = s.compact

/-- the white space before a comment -/
theorem newLine_ok {d : Nat} {s : Printer} (h : At d s) : ∃ w, Blank w ∧ (0 ≤ s.textDepth → w = []) ∧
    s.newLine = { s with first := false, out := s.out ++ w } := by
  unfold Printer.newLine
  simp only
  split
  · next hc =>
    refine ⟨lit "\n" ++ List.replicate (4 * s.depth.toNat) 32, blank_app blank_nl (blank_spaces _), fun h => by omega, ?_⟩
    simp only [Printer.put, Printer.printSpace, List.append_assoc]
  · exact ⟨[], blank_none, fun _ => rfl, by simp⟩

/-- what is proved about printing a node that is not a text between elements -/
def PrintsNode (x : Node) : Prop := ∀ (d : Nat) (s : Printer), At d s → Printable x → isText x = false →
  ∃ s' w sx w2, x.accept s = .ok s' ∧ s'.out = s.out ++ sealText s ++ w ++ sx ++ w2 ∧ Blank w ∧ Blank w2 ∧ (d ≠ 0 → w2 = []) ∧
    (0 ≤ s.textDepth → w = padding (tab s.compact) d [x]) ∧ WritesNode (indent (tab s.compact) d x) sx ∧ Went d s s' ∧ s'.justOpened = false

/-- and nodes one after the other -/
def PrintsAll (l : List Node) : Prop := ∀ (d : Nat) (s : Printer) (after : Bool), At d s → PrintableAll l → (d = 0 → ∀ x ∈ l, isText x = false) →
  (after = true → 0 ≤ s.textDepth ∧ s.justOpened = false ∧ ∀ x ∈ l.head?, isText x = false) →
  ∃ s' t, acceptAll l s = .ok s' ∧
    s'.out = s.out ++ (if l = [] then [] else sealText s) ++ (if after then padding (tab s.compact) d l else []) ++ t ∧ Went d s s' ∧ (l = [] → t = []) ∧
    (s'.justOpened = if l = [] then s.justOpened else false) ∧
    ∀ w0 w, Blank w0 → Blank w → (d ≠ 0 → w0 = []) → (after = true → w0 = []) → (0 ≤ s'.textDepth → w = []) →
      WritesAll after (indentAll (tab s.compact) d l) (w0 ++ t ++ w)

theorem prints_marked {x : Node} {body : Str} {d : Nat} {s : Printer} (h : At d s) (hx : ∀ s : Printer, x.accept s = .ok (s.sealed.newLine.put body))
    (hp : ∀ k, padding k d [x] = []) {y : Node} (hw : WritesNode y body) :
    ∃ s' w sx w2, x.accept s = .ok s' ∧ s'.out = s.out ++ sealText s ++ w ++ sx ++ w2 ∧ Blank w ∧ Blank w2 ∧ (d ≠ 0 → w2 = []) ∧
    (0 ≤ s.textDepth → w = padding (tab s.compact) d [x]) ∧ WritesNode y sx ∧ Went d s s' ∧ s'.justOpened = false := by
  have hs : At d s.sealed := by rw [seal_eq]; exact ⟨h.depth, h.text⟩
  obtain ⟨w, h1, h2, h3⟩ := newLine_ok hs
  refine ⟨_, w, body, [], hx s, ?_, h1, blank_none, fun _ => rfl, ?_, hw, ?_, ?_⟩
  · rw [h3, seal_eq]; simp [Printer.put]
  · rw [hp]; intro hh; exact h2 (by rw [seal_eq]; exact hh)
  · rw [h3, seal_eq]; exact ⟨⟨h.depth, h.text⟩, rfl, rfl⟩
  · rw [h3, seal_eq]; rfl

/-- the end of an element -/
theorem close_eq {out : Str} {jo : Bool} {n : Str} {rest : List Str} {fi : Bool} {de td : Int} {co : Bool} :
    Printer.closeElement ⟨out, jo, n :: rest, fi, de, td, co⟩ = .ok
      ⟨out ++ (if jo then lit "/>" else (if td < 0 ∧ ¬ co = true then lit "\n" ++ List.replicate (4 * (de - 1).toNat) 32 else []) ++ (lit "</" ++ n ++ lit ">")) ++
        (if de - 1 = 0 ∧ ¬ co = true then lit "\n" else []), false, rest, fi, de - 1, if td = de - 1 then -1 else td, co⟩ := by
  unfold Printer.closeElement
  generalize de - 1 = e
  by_cases h3 : e = 0
  · subst h3
    by_cases h2 : td = 0
    · subst h2
      cases jo <;> cases co <;> simp [Printer.put, Printer.printSpace]
    · cases jo <;> cases co <;> by_cases h1 : td < 0 <;> simp [h1, h2, Printer.put, Printer.printSpace]
  · by_cases h2 : td = e
    · subst h2
      cases jo <;> cases co <;> by_cases h1 : td < 0 <;> simp [h1, h3, Printer.put, Printer.printSpace]
    · cases jo <;> cases co <;> by_cases h1 : td < 0 <;> simp [h1, h2, h3, Printer.put, Printer.printSpace]

theorem open_eq {out : Str} {jo : Bool} {st : List Str} {fi : Bool} {de td : Int} {co : Bool} (n : Str) :
    Printer.openElement ⟨out, jo, st, fi, de, td, co⟩ n =
      ⟨out ++ (if jo then lit ">" else []) ++ ((if td < 0 ∧ ¬ fi = true ∧ ¬ co = true then lit "\n" else []) ++ List.replicate (tab co * de.toNat) 32) ++ lit "<" ++ n,
        true, n :: st, false, de + 1, td, co⟩ := by
  unfold Printer.openElement Printer.sealed
  by_cases h1 : td < 0 <;> cases jo <;> cases co <;> cases fi <;> simp [h1, Printer.put, Printer.printSpace, tab]

theorem prints_elem {n : Str} {as : List (Str × Str)} {cs : List Node} (ih : PrintsAll cs) : PrintsNode (.elem n as cs) := by
  intro d s hs hp _
  obtain ⟨hn, ha, hu, hc⟩ : IsName n ∧ (∀ a ∈ as, IsName a.1 ∧ Sendable a.2) ∧ (as.map (·.1)).Nodup ∧ PrintableAll cs := by rwa [Printable] at hp
  have hw := rawAttrs_writes ha hu
  obtain ⟨out, jo, st, fi, de, td, co⟩ := s
  obtain ⟨hd, ht⟩ := hs
  simp only at hd ht
  subst hd
  obtain ⟨⟨out', jo', st', fi', de', td', co'⟩, t, h1, h2, ⟨⟨h3, h4⟩, h5, h6⟩, ht0, h7, h8⟩ := ih (d + 1)
    (Printer.put (Printer.openElement ⟨out, jo, st, fi, d, td, co⟩ n) (attrsText (rawAttrs as))) false
    (by rw [open_eq]; exact ⟨by simp [Printer.put], by simp [Printer.put]; omega⟩) hc (fun h => by omega) (fun h => nomatch h)
  rw [open_eq] at h1 h2 h5 h6 h7 h8
  simp only [Printer.put] at h2 h3 h4 h5 h6 h7 h8
  subst h2 h3 h5 h7
  replace h6 := h6.symm
  subst h6
  have e : ((d + 1 : Nat) : Int) - 1 = d := by omega
  have hstep : Node.accept (.elem n as cs) ⟨out, jo, st, fi, d, td, co⟩ =
      (acceptAll cs (Printer.put (Printer.openElement ⟨out, jo, st, fi, d, td, co⟩ n) (attrsText (rawAttrs as)))).bind Printer.closeElement := by
    rw [Node.accept, push_attrs]; rfl
  rw [open_eq] at hstep
  have hacc := hstep.trans ((congrArg (Out.bind · Printer.closeElement) h1).trans close_eq)
  refine ⟨_, (if td < 0 ∧ ¬ fi = true ∧ ¬ co = true then lit "\n" else []) ++ List.replicate (tab co * d) 32,
    if cs = [] then lit "<" ++ n ++ attrsText (rawAttrs as) ++ lit "/>" else
      lit "<" ++ n ++ attrsText (rawAttrs as) ++ lit ">" ++ (t ++ (if td' < 0 ∧ ¬ co = true then lit "\n" ++ List.replicate (4 * d) 32 else [])) ++ lit "</" ++ n ++ lit ">",
    if (d : Int) = 0 ∧ ¬ co = true then lit "\n" else [], hacc, ?_, ?_, ?_, ?_, ?_, ?_, ?_, rfl⟩
  · simp only [sealText, e, Int.toNat_natCast]
    by_cases hcs : cs = []
    · rw [ht0 hcs]; simp [hcs]
    · simp [hcs]
  · exact blank_app (by split; exact blank_nl; exact blank_none) (blank_spaces _)
  · split
    · exact blank_nl
    · exact blank_none
  · intro hd; rw [if_neg (by omega)]
  · intro hh
    rw [if_neg (by simp only at hh; omega)]
    simp [padding, isElem]
  · rw [indent]
    split
    · next hcs =>
      subst hcs
      exact .sealed hn hw
    · next hcs =>
      refine .node hn hw ?_
      have := h8 [] (if td' < 0 ∧ ¬ co = true then lit "\n" ++ List.replicate (4 * d) 32 else []) blank_none
        (by split; exact blank_app blank_nl (blank_spaces _); exact blank_none) (fun _ => rfl) (fun _ => rfl) (fun hh => by rw [if_neg (by omega)])
      exact this
  · refine ⟨⟨e, ?_⟩, rfl, rfl⟩
    simp only [e]
    split <;> omega

theorem prints_text {v : Str} {l : List Node} (ih : PrintsAll l) : PrintsAll (.text false v :: l) := by
  intro d s after hs hp htop hafter
  cases after with
  | true => exact absurd ((hafter rfl).2.2 (.text false v) rfl) (by simp [isText])
  | false =>
  obtain ⟨hx, hmeet, hl⟩ : (Sendable v ∧ Visible v) ∧ textsMeet (.text false v) l = false ∧ PrintableAll l := by
    rw [PrintableAll, Printable] at hp; exact hp
  have hd : d ≠ 0 := fun h => absurd (htop h _ List.mem_cons_self) (by simp [isText])
  obtain ⟨out, jo, st, fi, de, td, co⟩ := s
  obtain ⟨hd', ht⟩ := hs
  simp only at hd' ht
  subst hd'
  have hpush : Printer.pushText ⟨out, jo, st, fi, d, td, co⟩ false v = ⟨out ++ (if jo then lit ">" else []) ++ Printer.string true [] v, false, st, fi, d, (d : Int) - 1, co⟩ := by
    unfold Printer.pushText
    rw [seal_eq]
    simp [Printer.put, sealText]
  obtain ⟨s', t, h1, h2, h3, -, h7, h8⟩ := ih d (Printer.pushText ⟨out, jo, st, fi, d, td, co⟩ false v) true (by rw [hpush]; exact ⟨rfl, by simp only; omega⟩) hl
    (fun h => (hd h).elim) (fun _ => by
      rw [hpush]
      refine ⟨by simp only; omega, rfl, ?_⟩
      cases l with
      | nil => intro x hx; cases hx
      | cons y l => intro x hx; cases hx; simpa [textsMeet, isText] using hmeet)
  rw [hpush] at h2 h3 h7 h8
  simp only [sealText] at h2 h7 h8
  refine ⟨s', Printer.string true [] v ++ padding (tab co) d l ++ t, ?_, ?_, ⟨h3.at', h3.stack, h3.compact⟩, (fun h => by cases h), ?_, ?_⟩
  · rw [acceptAll, Node.accept]
    exact h1
  · rw [h2]; simp [sealText]
  · rw [h7]; simp
  · intro w0 w b0 b1 h0 _ h9
    rw [h0 hd, List.nil_append, indentAll, indent, padText]
    have hesc : Escapes 60 (Printer.string true [] v ++ padding (tab co) d l) (v ++ padding (tab co) d l) := by
      have hpad : ∃ n, padding (tab co) d l = List.replicate n 32 := by
        unfold padding
        split
        · split
          · exact ⟨_, rfl⟩
          · exact ⟨0, rfl⟩
        · exact ⟨0, rfl⟩
      obtain ⟨n, hn⟩ := hpad
      rw [hn]
      refine escapes_append (sends (.inr ⟨rfl, rfl⟩) hx.1) (escapes_spaces n) ?_
      cases n <;> simp [List.replicate]
    have := h8 [] w blank_none b1 (fun _ => rfl) (fun _ => rfl) h9
    rw [List.nil_append] at this
    have := WritesAll.text hesc (escapes_visible hesc ?_) this
    · simpa [List.append_assoc] using this
    · obtain ⟨b, hb, hh⟩ := hx.2
      exact ⟨b, List.mem_append_left _ hb, hh⟩

theorem prints_cons {x : Node} {l : List Node} (hx : isText x = false) (ih1 : PrintsNode x) (ih2 : PrintsAll l) : PrintsAll (x :: l) := by
  intro d s after hs hp htop hafter
  obtain ⟨hpx, -, hl⟩ : Printable x ∧ textsMeet x l = false ∧ PrintableAll l := by rwa [PrintableAll] at hp
  obtain ⟨s1, w, sx, w2, h1, h2, h3, h4, h5, h6, h7, h8, h9⟩ := ih1 d s hs hpx hx
  obtain ⟨s', t, g1, g2, g3, -, g4, g5⟩ := ih2 d s1 false h8.at' hl (fun h y hy => htop h y (by simp [hy])) (fun h => nomatch h)
  have hpad : padText (padding (tab s.compact) d l) (indent (tab s.compact) d x) = indent (tab s.compact) d x := by
    cases x with
    | text c v => cases c with
      | true => rw [indent, padText]; simp
      | false => exact absurd hx (by simp [isText])
    | _ => simp [indent, padText]
  have hseal : sealText s1 = [] := by rw [sealText, h9]; rfl
  rw [h8.compact] at g5
  refine ⟨s', (if after then [] else w) ++ sx ++ w2 ++ t, ?_, ?_, ⟨g3.at', g3.stack.trans h8.stack, g3.compact.trans h8.compact⟩, (fun h => by cases h), ?_, ?_⟩
  · rw [acceptAll, h1]
    exact g1
  · rw [g2, h2, hseal]
    cases after with
    | false => simp
    | true =>
      rw [h6 (hafter rfl).1]
      simp [padding]
  · rw [g4, h9]; simp
  · intro w0 wE b0 bE h0 ha hE
    have := g5 w2 wE h4 bE h5 (fun h => nomatch h) hE
    rw [indentAll, hpad]
    cases after with
    | false =>
      have := WritesAll.node (after := false) (blank_app b0 h3) (fun h => nomatch h) h7 this
      simpa [List.append_assoc] using this
    | true =>
      rw [ha rfl]
      have := WritesAll.node (after := true) blank_none (fun _ => rfl) h7 this
      simpa [List.append_assoc] using this

mutual

theorem printsNode : (x : Node) → PrintsNode x
  | .elem n as cs => prints_elem (printsAll cs)
  | .text false v => fun _ _ _ _ h => absurd h (by simp [isText])
  | .text true v => by
    intro d s hs hp _
    have hp : Clean v ∧ ¬ lit "]]>" <:+: v := by rwa [Printable] at hp
    obtain ⟨out, jo, st, fi, de, td, co⟩ := s
    obtain ⟨hd, ht⟩ := hs
    simp only at hd ht
    subst hd
    refine ⟨⟨out ++ (if jo then lit ">" else []) ++ (lit "<![CDATA[" ++ v ++ lit "]]>"), false, st, fi, d, (d : Int) - 1, co⟩, [], _, [], ?_, ?_, blank_none, blank_none,
      fun _ => rfl, fun _ => ?_, .cdata hp.1 hp.2, ⟨⟨rfl, by simp only; omega⟩, rfl, rfl⟩, rfl⟩
    · rw [Node.accept, Printer.pushText]
      rw [seal_eq]
      simp [Printer.put, sealText]
    · simp [sealText]
    · simp [padding, isElem]
  | .comment v => by
    intro d s hs hp _
    have hp : Clean v ∧ ¬ lit "-->" <:+: v := by rwa [Printable] at hp
    rw [indent]
    exact prints_marked hs (fun s => by rw [Node.accept]; rfl) (fun k => by simp [padding, isElem]) (.comment hp.1 hp.2)
  | .decl v => by
    intro d s hs hp _
    rw [Printable] at hp
    exact hp.elim
  | .unknown v => by
    intro d s hs hp _
    have hp : Clean v ∧ ¬ lit ">" <:+: v ∧ ¬ lit "--" <+: v ∧ ¬ lit "[CDATA[" <+: v := by rwa [Printable] at hp
    rw [indent]
    exact prints_marked hs (fun s => by rw [Node.accept]; rfl) (fun k => by simp [padding, isElem]) (.unknown hp.1 hp.2.1 hp.2.2)

theorem printsAll : (l : List Node) → PrintsAll l
  | [] => by
    intro d s after hs _ _ hafter
    refine ⟨s, [], by rw [acceptAll], by simp [padding], ⟨hs, rfl, rfl⟩, fun _ => rfl, by simp, ?_⟩
    intro w0 w b0 b1 h0 h1 h2
    rw [indentAll]
    refine .nil (blank_app (blank_app b0 blank_none) b1) fun ha => ?_
    rw [h1 ha, h2 (hafter ha).1]
    rfl
  | x :: l => by
    cases hx : isText x with
    | true =>
      have ih := printsAll l
      cases x with
      | text c v => cases c with
        | false => exact prints_text ih
        | true => exact absurd hx (by simp [isText])
      | _ => exact absurd hx (by simp [isText])
    | false => exact prints_cons hx (printsNode x) (printsAll l)

end

/-! ## Documents -/

/-- a state between declarations -/
structure Top (s : Printer) : Prop where
  at' : At 0 s
  closed : s.justOpened = false

theorem indentAll_decls {k : Nat} {ds ns : List Node} (h : ∀ x ∈ ds, isText x = false ∧ isElem x = false) : indentAll k 0 (ds ++ ns) = ds ++ indentAll k 0 ns := by
  induction ds with
  | nil => rfl
  | cons x ds ih =>
    rw [List.cons_append, indentAll, ih fun y hy => h y (by simp [hy]), List.cons_append]
    congr 1
    have := h x (by simp)
    cases x with
    | elem => simp [isElem] at this
    | text c v => cases c with
      | true => simp [indent, padText]
      | false => simp [isText] at this
    | _ => simp [indent, padText]

theorem isText_indent (k d : Nat) (x : Node) (p : Str) : isText (padText p (indent k d x)) = isText x := by
  cases x with
  | text c v => cases c <;> simp [indent, padText, isText]
  | _ => simp [indent, padText, isText]

theorem indentAll_texts {k d : Nat} {l : List Node} (h : ∀ x ∈ l, isText x = false) : ∀ x ∈ indentAll k d l, isText x = false := by
  induction l with
  | nil => rw [indentAll]; intro x hx; cases hx
  | cons y l ih =>
    rw [indentAll]
    intro x hx
    rcases List.mem_cons.1 hx with rfl | hx
    · rw [isText_indent]; exact h y (by simp)
    · exact ih (fun z hz => h z (by simp [hz])) x hx

theorem acceptAll_append (l m : List Node) (s : Printer) : acceptAll (l ++ m) s = (acceptAll l s).bind (acceptAll m) := by
  induction l generalizing s with
  | nil => rw [List.nil_append, acceptAll]; rfl
  | cons x l ih =>
    rw [List.cons_append, acceptAll, acceptAll]
    cases x.accept s with
    | ok a => exact ih a
    | err => rfl
    | ub => rfl

theorem prints_decls {ns : List Node} (hn : PrintableAll ns) (hx : ∀ x ∈ ns, isText x = false) : ∀ (ds : List Node) (s : Printer), Top s →
    (∀ x ∈ ds, ∃ v, x = .decl v ∧ Clean v ∧ ¬ lit "?>" <:+: v) → ∃ s' t, acceptAll (ds ++ ns) s = .ok s' ∧ s'.out = s.out ++ t ∧
      WritesDoc (ds ++ indentAll (tab s.compact) 0 ns) t
  | [], s, hs, _ => by
    obtain ⟨s', t, h1, h2, h3, -, -, h5⟩ := printsAll ns 0 s false hs.at' hn (fun _ => hx) (fun h => nomatch h)
    refine ⟨s', t, h1, ?_, .nodes (fun x h => indentAll_texts hx x (List.mem_of_getLast? h)) ?_⟩
    · rw [h2]; simp [sealText, hs.closed]
    · have := h5 [] [] blank_none blank_none (fun _ => rfl) (fun _ => rfl) (fun _ => rfl)
      simpa using this
  | x :: ds, s, hs, hd => by
    obtain ⟨v, rfl, hc, he⟩ := hd x (by simp)
    obtain ⟨w, b, -, e⟩ := newLine_ok (s := s.sealed) (d := 0) (by rw [seal_eq]; exact ⟨hs.at'.depth, hs.at'.text⟩)
    have hpush : s.pushDeclaration v = { s with first := false, justOpened := false, out := s.out ++ w ++ (lit "<?" ++ v ++ lit "?>") } := by
      unfold Printer.pushDeclaration
      rw [e, seal_eq]
      simp [Printer.put, sealText, hs.closed]
    obtain ⟨s', t, h1, h2, h3⟩ := prints_decls hn hx ds (s.pushDeclaration v) (by rw [hpush]; exact ⟨⟨hs.at'.depth, hs.at'.text⟩, rfl⟩) fun y hy => hd y (by simp [hy])
    rw [hpush] at h2 h3
    refine ⟨s', w ++ lit "<?" ++ v ++ lit "?>" ++ t, ?_, ?_, ?_⟩
    · rw [List.cons_append, acceptAll, Node.accept]; exact h1
    · rw [h2]; simp
    · rw [List.cons_append]; exact .decl b hc he h3

theorem prints_doc {l : List Node} (h : PrintableDoc l) (compact bom : Bool) : ∃ t, printed compact bom l = .ok (bomText bom ++ t) ∧
    WritesDoc (indentAll (tab compact) 0 l) t := by
  obtain ⟨ds, ns, rfl, hd, hn, hx⟩ := h.parts
  have hstart : ∀ s : Printer, Top s → s.compact = compact → s.out = bomText bom → ∃ t, (acceptAll (ds ++ ns) s).bind (fun s => .ok s.out) = .ok (bomText bom ++ t) ∧
      WritesDoc (indentAll (tab compact) 0 (ds ++ ns)) t := by
    intro s hs hc ho
    obtain ⟨s', t, h1, h2, h3⟩ := prints_decls hn hx ds s hs hd
    refine ⟨t, ?_, ?_⟩
    · rw [h1, ← ho, ← h2]; rfl
    · rw [indentAll_decls, ← hc]
      · exact h3
      · intro x hx
        obtain ⟨v, rfl, -⟩ := hd x hx
        exact ⟨rfl, rfl⟩
  cases bom with
  | true => exact hstart (Printer.put (.new compact) [0xEF, 0xBB, 0xBF]) ⟨⟨rfl, show (-1 : Int) < 0 by decide⟩, rfl⟩ rfl rfl
  | false => exact hstart (.new compact) ⟨⟨rfl, show (-1 : Int) < 0 by decide⟩, rfl⟩ rfl rfl

end Verif.Xml
