import Verif.Proof.SaveLoad
import Verif.Props.Snippets
import Verif.Spec.Attempts
/-!
# Attempts to read a file
-/
set_option linter.unusedSimpArgs false
namespace Verif
open Spec Tec Props
variable {V V' : Type}

/-- a file with one zone has been written -/
structure Stored (E : Env) (echo : Bool) (s s' : FSt) (t : TecType) (es₁ : List Ext) (enc : V → Str) (F : Nat → List Int → V) : Prop where
  run : TecFile.write_plt E echo s = .ok () s'
  what : ∃ data z locs₁, Ready s data ∧ (∀ z ∈ s.f.Zones, ∀ d ∈ z.Data, d.size < 2147483648) ∧ s.f.Zones[0]? = some z ∧
    (∀ d ∈ z.Data, d.type = t ∧ d.size = t.bytes) ∧ s.f.Variables.length ≤ z.Data.length ∧ es₁.length = locs₁.length ∧
    ZoneFor (mkShape es₁ locs₁) z ∧
    ∀ j < z.Data.length, ∀ ys ∈ blockPts (es₁.map (·.i)), item t.bytes (data 0 j) (offset (mkShape es₁ locs₁) ys) = enc (F j ys)

/-- the file as the reader sees it -/
def stock (s : FSt) (es₁ : List Ext) (F : Nat → List Int → V') : Stock V' := ⟨s.f.FilePath, s.f.FileName, s.f.Variables, es₁.map (·.i), F⟩

theorem covers_iff {ns : List Nat} {es : List Ext} : covers ns es = true ↔ List.Forall₂ (· ≤ ·) ns (es.map (·.i)) := by
  induction ns generalizing es with
  | nil => cases es <;> simp [covers]
  | cons n ns ih => cases es <;> simp [covers, ih]

theorem within_covers {es₁ es : List Ext} (pos : Within (es₁.map fun e => (e.i : Int)) (es₁.map fun e => (e.i : Int))) :
    Within (es₁.map fun e => (e.i : Int)) (es.map fun e => (e.i : Int)) ↔ covers (es₁.map (·.i)) es = true := by
  induction es₁ generalizing es with
  | nil => cases es <;> simp [covers, Within]
  | cons n ns ih =>
    obtain ⟨p1, -, p2⟩ := pos
    cases es with
    | nil => simp [covers, Within]
    | cons e es =>
      simp only [List.map_cons, covers, Within, ih p2, Bool.and_eq_true, decide_eq_true_eq]
      constructor
      · rintro ⟨-, h1, h2⟩; exact ⟨by exact_mod_cast h1, h2⟩
      · rintro ⟨h1, h2⟩; exact ⟨p1, by exact_mod_cast h1, h2⟩

theorem Stored.log {E : Env} {echo : Bool} {s s' : FSt} {t : TecType} {es₁ : List Ext} {enc : V → Str} {F : Nat → List Int → V}
    (S : Stored E echo s s' t es₁ enc F) :
    LogOk s'.f.last_log ∧ s'.f.last_log.FileName = s.f.FileName ∧ s'.f.last_log.Variables = s.f.Variables ∧
    ∃ l, s'.f.last_log.Zones[0]? = some l ∧ fileSizes es₁.length l = es₁.map (fun e => (e.i : Int)) ∧
      Within (es₁.map fun e => (e.i : Int)) (es₁.map fun e => (e.i : Int)) := by
  obtain ⟨r, data, z, locs₁, h, hs, hi, hd, hlen, len₁, zone, img⟩ := S
  have ok := written_logOk h r hs
  obtain ⟨-, hn1, -, hvs, -, hz⟩ := C38_log h r
  obtain ⟨-, l, hl, -, hrm⟩ := hz 0 z hi
  have fit := h.zones z (List.mem_of_getElem? hi)
  have hsz : fileSizes es₁.length l = es₁.map fun e => (e.i : Int) := by
    have := zoneFor_sizes zone hrm
    rw [mkShape_ins len₁, mkShape_len len₁] at this
    rw [len₁, this]
  have hw := zoneFor_within zone fit
  rw [mkShape_ins len₁] at hw
  exact ⟨ok, hn1, hvs, l, hl, hsz, hw⟩

theorem nRange_msg {n N : Nat} (h : N < 2147483648) :
    stdCatch (.nRange n N) = some (lit ("N is out of range: " ++ toString n ++ " range:[0," ++ toString ((N : Int) - 1) ++ "]")) := by
  have : toI32 N = (N : Int) := toI32_of_lt h
  have e : stdCatch (.nRange n N) = some (lit ("N is out of range: " ++ toString n ++ " range:[0," ++ toString (toI32 N - 1) ++ "]")) := rfl
  exact e.trans (congrArg (fun i : Int => some (lit ("N is out of range: " ++ toString n ++ " range:[0," ++ toString (i - 1) ++ "]"))) this)

/-- one attempt -/
theorem Stored.attempt {E : Env} {echo : Bool} {s s' : FSt} {t : TecType} {es₁ : List Ext} {enc : V → Str} {F : Nat → List Int → V}
    (S : Stored E echo s s' t es₁ enc F) {C : Num V'} {conv : V → V'} (cd : Codec t enc C conv) {c : Bool}
    {mem₂ : Nat → Nat → Bool} {L : List Nat} {w₂ : World V'} {aw₂ : AWorld V'} (R₂ : Rel mem₂ w₂ aw₂ L)
    {x : Nat} {k : Kind} {es₂ : List Ext} {val : Nat → List Int → Option V'} (hx : aw₂.arr x = some (k, .ready es₂ val))
    (hk : k.N < 2147483648) (dim : es₂.length = es₁.length)
    {b : Heap Byte} (fr : Fresh b) (room : ∀ c, b.mem c (prod (es₁.map fun e => (e.i : Int)) * t.bytes) = true)
    {fs : Str → Option Str} (hfs : fs (cstr s.f.path) = s'.fs (cstr s.f.path)) {root name : Str} {n : Nat}
    (hn : c = true ∨ n < k.N) (hroot : root = s.f.FilePath ∨ fs (cstr (root ++ lit "/" ++ s.f.FileName ++ lit ".plt")) = none) :
    match refusal c (stock s es₁ fun j p => conv (F j p)) k.N es₂ root name n with
    | some m => ∃ e b', World.read_plt c C ⟨fs, root, s'.f.last_log, 0, name⟩ x n (w₂, b) = .err e (w₂, b') ∧ stdCatch e = some m ∧ SameBlocks b b'
    | none => ∃ w' b', World.read_plt c C ⟨fs, root, s'.f.last_log, 0, name⟩ x n (w₂, b) = .ok () (w', b') ∧ SameBlocks b b' ∧
      Rel mem₂ w' (aw₂.set x (some (k, .ready es₂ fun m p => if m = n ∧ p ∈ blockPts (es₁.map (·.i)) then
        some (conv (F (s.f.Variables.idxOf name) p)) else val m p))) L := by
  obtain ⟨ok, hn1, hvs, l, hl, hsz, hw⟩ := S.log
  have hint : interior k (.ready es₂ val) = es₂.map fun e => (e.i : Int) := by
    unfold interior sizesOf; rw [List.map_map]; rfl
  have Q := R₂.read_run c C (A := ⟨fs, root, s'.f.last_log, 0, name⟩) ok hx n fr
  obtain ⟨o, -, -, -, Q⟩ := Q
  rw [hint] at Q
  by_cases h1 : c = true ∧ k.N ≤ n
  · have : readErr c k.N (es₂.map fun e => (e.i : Int)) ⟨fs, root, s'.f.last_log, 0, name⟩ (fun n => b.mem b.next n) n = some (.nRange n k.N) := by
      unfold readErr; rw [if_pos h1]
    rw [this] at Q
    obtain ⟨b', q1, q2⟩ := Q
    unfold refusal
    rw [if_pos h1]
    refine ⟨_, b', q1, ?_, q2⟩
    exact nRange_msg hk
  have hnN : n < k.N := by
    rcases hn with h | h
    · exact Nat.lt_of_not_le fun h' => h1 ⟨h, h'⟩
    · exact h
  by_cases h2 : covers (es₁.map (·.i)) es₂ = false
  · have : readErr c k.N (es₂.map fun e => (e.i : Int)) ⟨fs, root, s'.f.last_log, 0, name⟩ (fun n => b.mem b.next n) n =
        some (.text (lit "N_file is bigger than N_in or equal to 0")) := by
      unfold readErr; rw [if_neg h1]
      simp only [hl, List.length_map, dim, hsz]
      rw [if_pos (by rw [within_covers hw, h2]; decide)]
    rw [this] at Q
    obtain ⟨b', q1, q2⟩ := Q
    unfold refusal
    rw [if_neg h1, if_pos (by exact h2)]
    exact ⟨_, b', q1, rfl, q2⟩
  have h2' : covers (es₁.map (·.i)) es₂ = true := by simpa using h2
  have hwi := (within_covers hw).2 h2'
  by_cases h3 : name ∈ s.f.Variables
  swap
  · have : readErr c k.N (es₂.map fun e => (e.i : Int)) ⟨fs, root, s'.f.last_log, 0, name⟩ (fun n => b.mem b.next n) n =
        some (.text (lit "error when finding variables " ++ name ++ lit " in: " ++ s.f.FileName)) := by
      unfold readErr; rw [if_neg h1]
      simp only [hl, List.length_map, dim, hsz, hvs, List.idxOf?_eq_none_iff.2 h3, hn1]
      rw [if_neg (not_not_intro hwi)]
    rw [this] at Q
    obtain ⟨b', q1, q2⟩ := Q
    unfold refusal
    rw [if_neg h1, if_neg (by exact h2), if_pos (by exact h3)]
    exact ⟨_, b', q1, rfl, q2⟩
  obtain ⟨r, data, z, locs₁, h, hs, hi, hd, hlen, len₁, zone, img⟩ := S
  have hjl0 : s.f.Variables.idxOf name < s.f.Variables.length := List.idxOf_lt_length_iff.2 h3
  have hj : s.f.Variables.idxOf? name = some (s.f.Variables.idxOf name) := by
    rw [List.idxOf?_eq_some_iff]
    refine ⟨hjl0, List.getElem_idxOf hjl0, ?_⟩
    intro i hi e
    have := List.not_of_lt_findIdx (p := (· == name)) (xs := s.f.Variables) hi
    simp [e] at this
  generalize hjj : s.f.Variables.idxOf name = j at *
  have hjl : j < z.Data.length := by omega
  by_cases h4 : root = s.f.FilePath
  swap
  · have h5 := hroot.resolve_left h4
    obtain ⟨bytes, pt, hf, hdat, -⟩ := C38 h r
    obtain ⟨l', dl, e1, -, e2, e3, -⟩ := hdat 0 z j _ hi (List.getElem?_eq_getElem hjl)
    rw [hl] at e1; cases e1
    have : readErr c k.N (es₂.map fun e => (e.i : Int)) ⟨fs, root, s'.f.last_log, 0, name⟩ (fun n => b.mem b.next n) n =
        some (.text (lit "error when opening file: " ++ root ++ lit "/" ++ s.f.FileName ++ lit ".plt")) := by
      unfold readErr; rw [if_neg h1]
      have hp : pltName ⟨fs, root, s'.f.last_log, 0, name⟩ = root ++ lit "/" ++ s.f.FileName ++ lit ".plt" := by unfold pltName; simp only [hn1]
      simp only [hl, List.length_map, dim, hsz, hvs, hj, e2, e3, hp, h5]
      rw [if_neg (not_not_intro hwi)]
      simp only [List.append_assoc]
    rw [this] at Q
    obtain ⟨b', q1, q2⟩ := Q
    unfold refusal
    rw [if_neg h1, if_neg (by exact h2), if_neg (by exact not_not_intro h3), if_pos (by exact h4)]
    exact ⟨_, b', q1, rfl, q2⟩
  subst h4
  unfold refusal
  rw [if_neg h1, if_neg (by exact h2), if_neg (by exact not_not_intro h3), if_neg (by exact not_not_intro rfl)]
  have hblk : ∀ p, p ∈ blockPts (es₁.map (·.i)) ↔ InBlock (es₁.map fun e => (e.i : Int)) p := by
    intro p
    rw [mem_blockPts, List.map_map]; rfl
  obtain ⟨dt, dz⟩ := hd _ (List.getElem_mem hjl)
  obtain ⟨w1, b1, q1, q2, q3⟩ := read_back h r hs hi (List.getElem?_eq_getElem hjl) hj (by rw [dt, dz]) len₁ zone (G := F j) (enc := enc)
      (by intro ys hy; rw [dz]; exact img j hjl ys ((hblk ys).2 hy)) (by rw [dt]; exact cd) R₂ hx hnN (covers_iff.1 h2') fr (by rw [dz]; exact room _) hfs c
  refine ⟨w1, b1, q1, q2, ?_⟩
  have : loadVal n (es₁.map fun e => (e.i : Int)) (fun ys => conv (F j ys)) val = fun m p => if m = n ∧ p ∈ blockPts (es₁.map (·.i)) then
        some (conv (F j p)) else val m p := by
    funext m p
    unfold loadVal
    by_cases hc : m = n ∧ InBlock (es₁.map fun e => (e.i : Int)) p
    · rw [if_pos hc, if_pos ⟨hc.1, (hblk p).2 hc.2⟩]
    · rw [if_neg hc, if_neg fun h => hc ⟨h.1, (hblk p).1 h.2⟩]
  rw [← this]
  exact q3

/-- an attempt at a component that does not exist, without the test -/
theorem Stored.attempt_ub {E : Env} {echo : Bool} {s s' : FSt} {t : TecType} {es₁ : List Ext} {enc : V → Str} {F : Nat → List Int → V}
    (S : Stored E echo s s' t es₁ enc F) {C : Num V'} {conv : V → V'} (cd : Codec t enc C conv)
    {mem₂ : Nat → Nat → Bool} {L : List Nat} {w₂ : World V'} {aw₂ : AWorld V'} (R₂ : Rel mem₂ w₂ aw₂ L)
    {x : Nat} {k : Kind} {es₂ : List Ext} {val : Nat → List Int → Option V'} (hx : aw₂.arr x = some (k, .ready es₂ val))
    (cov : covers (es₁.map (·.i)) es₂ = true)
    {b : Heap Byte} (fr : Fresh b) (room : ∀ c, b.mem c (prod (es₁.map fun e => (e.i : Int)) * t.bytes) = true)
    {fs : Str → Option Str} (hfs : fs (cstr s.f.path) = s'.fs (cstr s.f.path)) {name : Str} {n : Nat}
    (hn : k.N ≤ n) (h3 : name ∈ s.f.Variables) :
    World.read_plt false C ⟨fs, s.f.FilePath, s'.f.last_log, 0, name⟩ x n (w₂, b) = .ub .oob := by
  obtain ⟨r, data, z, locs₁, h, hs, hi, hd, hlen, len₁, zone, img⟩ := S
  obtain ⟨j, hj⟩ : ∃ j, s.f.Variables.idxOf? name = some j := by
    cases e : s.f.Variables.idxOf? name with
    | none => rw [List.idxOf?_eq_none_iff] at e; exact absurd h3 e
    | some j => exact ⟨j, rfl⟩
  have hjl : j < z.Data.length := by
    obtain ⟨h', -⟩ := List.idxOf?_eq_some_iff.1 hj
    omega
  have hblk : ∀ p, p ∈ blockPts (es₁.map (·.i)) ↔ InBlock (es₁.map fun e => (e.i : Int)) p := by
    intro p
    rw [mem_blockPts, List.map_map]; rfl
  obtain ⟨dt, dz⟩ := hd _ (List.getElem_mem hjl)
  exact read_back_ub h r hs hi (List.getElem?_eq_getElem hjl) hj (by rw [dt, dz]) len₁ zone (G := F j) (enc := enc)
      (by intro ys hy; rw [dz]; exact img j hjl ys ((hblk ys).2 hy)) (by rw [dt]; exact cd) R₂ hx hn (covers_iff.1 cov) fr (by rw [dz]; exact room _) hfs

/-- the file of C70 -/
theorem export_stored {mem : Nat → Nat → Bool} {chk : Bool} {w₀ w₁ : World V} {aw₀ aw₁ : AWorld V} {E : Env} {echo : Bool} {s s' : FSt}
    (R₀ : Reach mem chk w₀ aw₀) (R₁ : Reach mem chk w₁ aw₁) (same : w₁.objs = w₀.objs)
    {es : List Ext} {locs : List Loc} {z : Zone} (hz : ZoneFor (mkShape es locs) z) {T : CType} {t : TecType} (hT : (T, t) ∈ tecTypes)
    {vs : List (Nat × Nat)} (hv : VarsAre chk w₀ t T.size vs z.Data) {F : Nat → List Int → V} (fill : Filled aw₀ aw₁ es locs vs F)
    (pos : ∀ e ∈ es, 1 ≤ e.i) (pts : points (mkShape es locs) ≤ 2147483647)
    (one : OneZone s.f z) {enc : V → Str} (bytes : ByteView T.size enc w₁.h s.h)
    (brief : s.f.Brief E) (len : s.f.lengthOf Zone.selectedPoints < 9223372036854775808)
    (r : TecFile.write_plt E echo s = .ok () s') (kn : t = .float ∨ t = .double) : Stored E echo s s' t es enc F := by
  obtain ⟨data, wr, valid, typed, hlen, hdata⟩ := export_ready (E := E) R₀ R₁ same hz hT hv fill pos pts one bytes brief len
  obtain ⟨-, -, hsize⟩ := C61 (T := ⟨T, false, false⟩) .null hT rfl
  simp only at hsize
  have zmem : ∀ y, y ∈ s.f.Zones ↔ y = z := by intro y; rw [one.zones]; simp
  have entry : ∀ j < z.Data.length, ∃ y n, vs[j]? = some (y, n) := by
    intro j hj
    exact ⟨_, _, List.getElem?_eq_getElem (by rw [← hv.1]; exact hj)⟩
  have hd : ∀ d ∈ z.Data, d.type = t ∧ d.size = t.bytes := by
    intro d hd
    obtain ⟨j, hj⟩ := List.getElem?_of_mem hd
    obtain ⟨y, n, hyn⟩ := entry j (List.getElem?_eq_some_iff.1 hj).1
    obtain ⟨p, h, -⟩ := hdata j y n hyn
    rw [hj] at h; cases h
    exact ⟨rfl, hsize⟩
  have small : t.bytes < 2147483648 := by rcases kn with rfl | rfl <;> decide
  refine ⟨r, _, z, locs, wr.ready, fun y hy d hd' => by rw [(zmem y).1 hy] at hd'; rw [(hd d hd').2]; exact small,
    by rw [one.zones]; rfl, hd, by rw [one.names], hlen, hz, ?_⟩
  intro j hj ys hys
  obtain ⟨y, n, hyn⟩ := entry j hj
  obtain ⟨p, -, -, -, h⟩ := hdata j y n hyn
  rw [← hsize]
  exact h ys hys

/-- variables read into components -/
theorem Stored.vars {E : Env} {echo : Bool} {s s' : FSt} {t : TecType} {es₁ : List Ext} {enc : V → Str} {F : Nat → List Int → V}
    (S : Stored E echo s s' t es₁ enc F) {C : Num V'} {conv : V → V'} (cd : Codec t enc C conv) (c : Bool)
    {mem₂ : Nat → Nat → Bool} {L : List Nat} {w₂ : World V'} {aw₂ : AWorld V'} (R₂ : Rel mem₂ w₂ aw₂ L)
    {x : Nat} {k : Kind} {es₂ : List Ext} {val : Nat → List Int → Option V'} (hx : aw₂.arr x = some (k, .ready es₂ val))
    (same : List.Forall₂ (· ≤ ·) (es₁.map (·.i)) (es₂.map (·.i)))
    (rs : List (Str × Nat)) (hr : ∀ v ∈ rs, v.1 ∈ s.f.Variables ∧ v.2 < k.N) (nd : (rs.map Prod.snd).Nodup)
    {b : Heap Byte} (fr : Fresh b) (room : ∀ c, b.mem c (prod (es₁.map fun e => (e.i : Int)) * t.bytes) = true)
    {fs : Str → Option Str} (hfs : fs (cstr s.f.path) = s'.fs (cstr s.f.path)) :
    ∃ w' b' val', readVars c C fs s.f.FilePath s'.f.last_log 0 x rs (w₂, b) = .ok () (w', b') ∧ SameBlocks b b' ∧
      Rel mem₂ w' (aw₂.set x (some (k, .ready es₂ val'))) L ∧
      (∀ v ∈ rs, ∀ j, s.f.Variables.idxOf? v.1 = some j → ∀ p ∈ blockPts (es₁.map (·.i)), val' v.2 p = some (conv (F j p))) ∧
      ∀ m p, ¬ (m ∈ rs.map Prod.snd ∧ p ∈ blockPts (es₁.map (·.i))) → val' m p = val m p := by
  obtain ⟨r, data, z, locs₁, h, hs, hi, hd, hlen, len₁, zone, img⟩ := S
  exact read_vars (i := 0) h r hs hi hd hlen len₁ zone (F := F) (enc := enc) img cd same c hfs rs hr nd R₂ hx fr room

theorem aset_set (aw : AWorld V) (x : Nat) (a a' : Option (Kind × AArr V)) : (aw.set x a).set x a' = aw.set x a' := by
  unfold AWorld.set
  congr
  funext y
  simp only
  split <;> rfl

theorem silent_ok {σ : Type} {m : M σ Unit} {t t' : σ} (h : m t = .ok () t') (o : Nat → Str) : silent m (t, o) = .ok () (t', o) := by
  unfold silent; simp only [h]

theorem silent_err {σ : Type} {m : M σ Unit} {t t' : σ} {e : Err} (h : m t = .err e t') (o : Nat → Str) : silent m (t, o) = .err e (t', o) := by
  unfold silent; simp only [h]

theorem granted_every (n : Nat) (rs : List Nat) : granted (fun _ _ => true) n rs = rs.length := by
  induction rs generalizing n with
  | nil => rfl
  | cons r rs ih => simp only [granted, if_true, ih, List.length_cons]

theorem sizeErrs_none {es : List Ext} (pos : ∀ e ∈ es, 1 ≤ e.i) (d : Nat) : sizeErrs d es = none := by
  induction es generalizing d with
  | nil => rfl
  | cons e es ih =>
    simp only [sizeErrs]
    have := pos e List.mem_cons_self
    rw [if_neg (by omega)]
    exact ih (fun e he => pos e (List.mem_cons_of_mem _ he)) _

theorem points_pos {es : List Ext} {ls : List Loc} (pos : ∀ e ∈ es, 1 ≤ e.i) : points (mkShape es ls) ≠ 0 := by
  induction es generalizing ls with
  | nil => cases ls <;> simp [mkShape, points]
  | cons e es ih =>
    cases ls with
    | nil => simp [mkShape, points]
    | cons l ls =>
      simp only [mkShape, points]
      have h0 := pos e List.mem_cons_self
      exact Nat.mul_ne_zero (by simp only [Dim.width]; omega) (ih fun e he => pos e (List.mem_cons_of_mem _ he))

/-- `realloc` with positive sizes, all memory being granted -/
theorem Rel.realloc {w : World V} {aw : AWorld V} {L : List Nat} (R : Rel (fun _ _ => true) w aw L) (chk : Bool) {x : Nat} {k : Kind} {es : List Ext}
    {val : Nat → List Int → Option V} (hx : aw.arr x = some (k, .ready es val)) {es' : List Ext} (hs : SizesOk k es') (pos : ∀ e ∈ es', 1 ≤ e.i) :
    ∃ w' L' n, exec chk (.realloc x es') w = .ok .unit w' ∧
      Rel (fun _ _ => true) w' { aw.set x (some (k, .ready es' fun _ _ => none)) with next := n } L' := by
  have h : astep (fun _ _ => true) chk aw (.realloc x es') = some (.ret .unit, { aw.set x (some (k, .ready es' fun _ _ => none)) with
        next := aw.next + (requests k.N (mkShape es' k.locs)).length }) := by
    simp only [astep, hx, hs, if_true, reallocStep, allocEmpty, sizeErrs_none pos, points_pos pos, if_false, granted_every, evOf]
  obtain ⟨w', L', h1, h2⟩ := step_sim chk R _ h
  exact ⟨w', L', _, h1, h2⟩

/-- the attempts one after the other -/
theorem Stored.attempts {E : Env} {echo : Bool} {s s' : FSt} {t : TecType} {es₁ : List Ext} {enc : V → Str} {F : Nat → List Int → V}
    (S : Stored E echo s s' t es₁ enc F) {C : Num V'} {conv : V → V'} (cd : Codec t enc C conv) (c : Bool)
    {x : Nat} {k : Kind} (hk : k.N < 2147483648) (dim : k.locs.length = es₁.length)
    {fs : Str → Option Str} (hfs : fs (cstr s.f.path) = s'.fs (cstr s.f.path)) (as : List Attempt)
    (fair : ∀ a ∈ as, Fair c (stock s es₁ fun j p => conv (F j p)) k fs a) :
    ∀ {w₂ : World V'} {aw₂ : AWorld V'} {L : List Nat} {H : Holder V'}, Rel (fun _ _ => true) w₂ aw₂ L →
    aw₂.arr x = some (k, .ready H.es H.val) → H.es.length = es₁.length →
    ∀ {b : Heap Byte}, Fresh b → (∀ c, b.mem c (prod (es₁.map fun e => (e.i : Int)) * t.bytes) = true) → ∀ (o : Nat → Str), o 0 = H.out →
    ∃ w' b' aw' L', runAttempts c C fs s'.f.last_log 0 x as ((w₂, b), o) =
        .ok () ((w', b'), Function.update o 0 (as.foldl (attempted c (stock s es₁ fun j p => conv (F j p)) k.N) H).out) ∧ b'.blk = b.blk ∧
      Rel (fun _ _ => true) w' aw' L' ∧ (∀ y, y ≠ x → aw'.arr y = aw₂.arr y) ∧
      aw'.arr x = some (k, .ready (as.foldl (attempted c (stock s es₁ fun j p => conv (F j p)) k.N) H).es
        (as.foldl (attempted c (stock s es₁ fun j p => conv (F j p)) k.N) H).val) := by
  induction as with
  | nil =>
    intro w₂ aw₂ L H R hx hl b fr room o ho
    refine ⟨w₂, b, aw₂, L, ?_, rfl, R, fun _ _ => rfl, hx⟩
    simp only [List.foldl_nil, ← ho, Function.update_eq_self]
    rfl
  | cons a as ih =>
    intro w₂ aw₂ L H R hx hl b fr room o ho
    have fa := fair a List.mem_cons_self
    have fair' := fun a ha => fair a (List.mem_cons_of_mem _ ha)
    rw [List.foldl_cons]
    cases a with
    | realloc es' =>
      obtain ⟨w1, L1, n1, e1, R1⟩ := R.realloc c hx fa.1 fa.2
      have r1 : onArrays (runOps c [.realloc x es']) (w₂, b) = .ok () (w1, b) := by
        unfold onArrays
        simp only
        rw [runOps_cons e1]; rfl
      obtain ⟨w', b', aw', L', p1, p2, p3, p4, p5⟩ := ih fair' (H := ⟨es', fun _ _ => none, H.out⟩) R1 (by simp only [AWorld.set, if_pos])
        (by rw [fa.1.1, dim]) fr room o ho
      refine ⟨w', b', aw', L', ?_, p2, p3, ?_, p5⟩
      · unfold runAttempts Attempt.run
        simp only
        rw [M.bind_ok (silent_ok r1 o)]
        exact p1
      · intro y hy
        rw [p4 y hy]
        simp only [AWorld.set, if_neg hy]
    | read root name n now r =>
      have Q := S.attempt cd R hx hk hl fr room hfs (name := name) fa.1 fa.2
      cases hr : refusal c (stock s es₁ fun j p => conv (F j p)) k.N H.es root name n with
      | some m =>
        simp only [hr] at Q
        obtain ⟨e, b1, q1, q2, sb1, sb2, sb3⟩ := Q
        have ex := (C48_except stdCatch now r (silent (World.read_plt c C ⟨fs, root, s'.f.last_log, 0, name⟩ x n)) 0 0 ((w₂, b), o)).2.1 e m _
          (silent_err q1 o) q2
        simp only at ex
        have hst : attempted c (stock s es₁ fun j p => conv (F j p)) k.N H (.read root name n now r) =
            ⟨H.es, H.val, H.out ++ (stamp now r ++ lit "with exception\n") ++ (stamp now r ++ cstr m ++ lit "\n")⟩ := by
          unfold attempted
          simp only [hr]
          rfl
        rw [hst]
        obtain ⟨w', b', aw', L', p1, p2, p3, p4, p5⟩ := ih fair'
          (H := ⟨H.es, H.val, H.out ++ (stamp now r ++ lit "with exception\n") ++ (stamp now r ++ cstr m ++ lit "\n")⟩) R hx hl
          (b := b1) (fun c hc => by rw [sb1]; exact fr c (by omega)) (fun k => by rw [sb2]; exact room k)
          (written (written o 0 (stamp now r ++ lit "with exception\n")) 0 (stamp now r ++ cstr m ++ lit "\n"))
          (by unfold written; simp only [Function.update_self, ho])
        refine ⟨w', b', aw', L', ?_, p2.trans sb1, p3, p4, p5⟩
        unfold runAttempts Attempt.run
        simp only
        rw [M.bind_ok ex, p1]
        unfold written
        simp only [Function.update_idem]
      | none =>
        simp only [hr] at Q
        obtain ⟨w1, b1, q1, ⟨sb1, sb2, sb3⟩, R1⟩ := Q
        have ex := (C48_except stdCatch now r (silent (World.read_plt c C ⟨fs, root, s'.f.last_log, 0, name⟩ x n)) 0 0 ((w₂, b), o)).1 _
          (silent_ok q1 o)
        simp only at ex
        have hst : attempted c (stock s es₁ fun j p => conv (F j p)) k.N H (.read root name n now r) =
            ⟨H.es, fun m p => if m = n ∧ p ∈ blockPts (es₁.map (·.i)) then some (conv (F (s.f.Variables.idxOf name) p)) else H.val m p,
              H.out ++ (stamp now r ++ lit "no exception\n")⟩ := by
          unfold attempted
          simp only [hr]
          rfl
        rw [hst]
        obtain ⟨w', b', aw', L', p1, p2, p3, p4, p5⟩ := ih fair'
          (H := ⟨H.es, fun m p => if m = n ∧ p ∈ blockPts (es₁.map (·.i)) then some (conv (F (s.f.Variables.idxOf name) p)) else H.val m p,
              H.out ++ (stamp now r ++ lit "no exception\n")⟩) R1 (by simp only [AWorld.set, if_pos]) hl
          (b := b1) (fun c hc => by rw [sb1]; exact fr c (by omega)) (fun k => by rw [sb2]; exact room k)
          (written o 0 (stamp now r ++ lit "no exception\n"))
          (by unfold written; simp only [Function.update_self, ho])
        refine ⟨w', b', aw', L', ?_, p2.trans sb1, p3, ?_, p5⟩
        · unfold runAttempts Attempt.run
          simp only
          rw [M.bind_ok ex, p1]
          unfold written
          simp only [Function.update_idem]
        · intro y hy
          rw [p4 y hy]
          simp only [AWorld.set, if_neg hy]

end Verif
