import Verif.Proof.TecW5
import Verif.Spec.TecHead
/-!
# The header can be read back
-/
namespace Verif.Tec
open Spec

theorem little_le (k n : Nat) : little (leBytes k n) = n % 256 ^ k := by
  induction k generalizing n with
  | zero => simp [leBytes, little, Nat.mod_one]
  | succ k ih =>
    show (UInt8.ofNat n).toNat + 256 * little (leBytes k (n / 256)) = _
    rw [ih, UInt8.toNat_ofNat', Nat.pow_succ (n := 256), Nat.mul_comm (256 ^ k) 256, Nat.mod_mul]

theorem next_append {n : Nat} {a : Bytes} (h : a.length = n) (r : Bytes) : next n (a ++ r) = some (a, r) := by
  unfold next
  rw [if_pos (by rw [List.length_append]; omega), ← h, List.take_left, List.drop_left]

theorem word_le {n : Nat} (h : n < 4294967296) (r : Bytes) : word (leBytes 4 n ++ r) = some (n, r) := by
  unfold word
  rw [next_append (leBytes_length 4 n), Option.map_some, little_le, Nat.mod_eq_of_lt (by simpa using h)]

theorem expect_le {n : Nat} (h : n < 4294967296) (m : Nat) (r : Bytes) : expect m (leBytes 4 n ++ r) = if n = m then some r else none := by
  unfold expect; rw [word_le h]; rfl

theorem toU32_lt (a : Int) : toU32 a < 4294967296 := by unfold toU32; omega

theorem expect_int (a : Int) (m : Nat) (r : Bytes) : expect m (int4 a ++ r) = if toU32 a = m then some r else none :=
  expect_le (toU32_lt a) m r

theorem int32_int {a : Int} (h : InI32 a) (r : Bytes) : int32 (int4 a ++ r) = some (a, r) := by
  unfold int32 int4
  rw [word_le (toU32_lt a), Option.map_some]
  obtain ⟨h1, h2⟩ := h
  unfold toU32
  split <;> (congr 2; omega)

theorem word_int {a : Nat} (h : a < 4294967296) (r : Bytes) : word (int4 (a : Int) ++ r) = some (a, r) := by
  unfold int4
  have : toU32 (a : Int) = a := by unfold toU32; omega
  rw [this, word_le h]

theorem bits64_le (a : F64) (r : Bytes) : bits64 (leBytes 8 a.toNat ++ r) = some (a.toNat, r) := by
  unfold bits64
  rw [next_append (leBytes_length 8 _), Option.map_some, little_le, Nat.mod_eq_of_lt]
  have := a.isLt
  exact this

theorem text_char (c : Byte) (r : Bytes) : text (int4 (charVal c) ++ r) =
    if c = 0 then some ([], r) else (text r).map fun p => (c :: p.1, p.2) := by
  have hl := leBytes_length 4 (toU32 (charVal c))
  have hv := little_le 4 (toU32 (charVal c))
  have h0 : (leBytes 4 (toU32 (charVal c)))[0]? = some (UInt8.ofNat (toU32 (charVal c))) := rfl
  unfold int4
  generalize leBytes 4 (toU32 (charVal c)) = b at *
  match b, hl with
  | [x, y, z, w], _ =>
    show (if little [x, y, z, w] = 0 then _ else (text r).map fun p => (x :: p.1, p.2)) = _
    rw [hv]
    have hc : UInt8.ofNat (toU32 (charVal c)) = c := by
      apply UInt8.toNat_inj.mp
      rw [UInt8.toNat_ofNat']
      have := c.toNat_lt
      unfold toU32 charVal
      split <;> omega
    have hx : x = c := by
      have : some x = some (UInt8.ofNat (toU32 (charVal c))) := h0
      rw [hc] at this
      exact Option.some.inj this
    have hz : (toU32 (charVal c) % 256 ^ 4 = 0) ↔ c = 0 := by
      rw [← UInt8.toNat_inj]
      have := c.toNat_lt
      unfold toU32 charVal
      show _ ↔ c.toNat = 0
      split <;> omega
    by_cases h : c = 0
    · rw [if_pos (hz.mpr h), if_pos h]; rfl
    · rw [if_neg (fun e => h (hz.mp e)), if_neg h, hx]

theorem text_read {a : Str} (h : (0 : Byte) ∉ a) (r : Bytes) : text (textBytes a ++ r) = some (a, r) := by
  unfold textBytes
  induction a with
  | nil => exact text_char 0 r
  | cons c a ih =>
    rw [List.flatMap_cons, List.append_assoc, List.append_assoc, text_char, if_neg (fun e => h (by rw [e]; simp)), ← List.append_assoc,
      ih (fun e => h (by simp [e]))]
    rfl

theorem texts_read (l : List Str) (h : ∀ a ∈ l, (0 : Byte) ∉ a) (r : Bytes) : texts l.length (l.flatMap textBytes ++ r) = some (l, r) := by
  induction l with
  | nil => rfl
  | cons a l ih =>
    rw [List.flatMap_cons, List.append_assoc, List.length_cons]
    unfold texts
    rw [text_read (h a (by simp))]
    simp only [Option.bind_eq_bind, Option.bind_some]
    rw [ih (fun a ha => h a (by simp [ha]))]
    rfl

theorem pair_read {a b : Str} (ha : (0 : Byte) ∉ a) (hb : (0 : Byte) ∉ b) (r : Bytes) :
    pair (textBytes a ++ (int4 0 ++ (textBytes b ++ r))) = some ((a, b), r) := by
  unfold pair
  rw [text_read ha]
  simp only [Option.bind_eq_bind, Option.bind_some]
  rw [expect_int]
  simp only [show toU32 0 = 0 from rfl, if_pos, Option.bind_some]
  rw [text_read hb]
  rfl

theorem many_read {α β : Type} {mark : Nat} {item : Bytes → Option (β × Bytes)} (g : α → Bytes) (v : α → β) (l : List α) (r : Bytes)
    (hm : mark < 4294967296) (hi : ∀ a ∈ l, ∀ r, item (g a ++ r) = some (v a, r)) (hr : expect mark r = none) :
    ∀ n, l.length ≤ n → many mark item n (l.flatMap (fun a => leBytes 4 mark ++ g a) ++ r) = some (l.map v, r) := by
  induction l with
  | nil =>
    intro n _
    cases n with
    | zero => rfl
    | succ n => unfold many; rw [List.flatMap_nil, List.nil_append, hr]; rfl
  | cons a l ih =>
    intro n hn
    cases n with
    | zero => simp at hn
    | succ n =>
      unfold many
      rw [List.flatMap_cons, List.append_assoc, List.append_assoc, expect_le hm, if_pos rfl]
      simp only
      rw [hi a (by simp)]
      simp only [Option.bind_eq_bind, Option.bind_some]
      rw [ih (fun b hb => hi b (by simp [hb])) n (by simpa using hn)]
      rfl

theorem length_many {α : Type} (mark : Nat) (g : α → Bytes) (l : List α) (r : Bytes) :
    l.length ≤ (l.flatMap (fun a => leBytes 4 mark ++ g a) ++ r).length := by
  induction l with
  | nil => simp
  | cons a l ih =>
    rw [List.flatMap_cons, List.append_assoc, List.length_append, List.length_append, leBytes_length, List.length_cons]
    omega

/-- no text of these auxiliary data contains NUL -/
def PairsClean (m : AuxMap) : Prop := ∀ e ∈ m, (0 : Byte) ∉ e.1 ∧ (0 : Byte) ∉ e.2

theorem pairs_read (mark : Nat) (hm : mark < 4294967296) (m : AuxMap) (h : PairsClean m) (r : Bytes) (hr : expect mark r = none) (n : Nat) (hn : m.length ≤ n) :
    many mark pair n (m.flatMap (fun e => leBytes 4 mark ++ (textBytes e.1 ++ (int4 0 ++ textBytes e.2))) ++ r) = some (m, r) := by
  have := many_read (item := pair) (fun e : Str × Str => textBytes e.1 ++ (int4 0 ++ textBytes e.2)) id m r hm (fun e he r => by
    rw [List.append_assoc, List.append_assoc, pair_read (h e he).1 (h e he).2]; rfl) hr n hn
  rw [List.map_id] at this
  exact this

structure Zone.Clean (z : Zone) : Prop where
  name : (0 : Byte) ∉ z.ZoneName
  strand : InI32 z.StrandId
  max0 : InI32 z.Real_Max.x
  max1 : InI32 z.Real_Max.y
  max2 : InI32 z.Real_Max.z
  aux : PairsClean z.Auxiliary

def Zone.head (z : Zone) : ZoneHead := ⟨z.ZoneName, z.StrandId, z.SolutionTime.toNat, (z.Real_Max.x, z.Real_Max.y, z.Real_Max.z), z.Auxiliary⟩

/-- a zone without its marker -/
def Zone.headRest (z : Zone) : Str :=
  textBytes z.ZoneName ++ (int4 (-1) ++ (int4 z.StrandId ++ (leBytes 8 z.SolutionTime.toNat ++ (int4 (-1) ++
    (int4 0 ++ (int4 0 ++ (int4 0 ++ (int4 0 ++ (int4 z.Real_Max.x ++ (int4 z.Real_Max.y ++ (int4 z.Real_Max.z ++
    (z.Auxiliary.flatMap (fun e => leBytes 4 1 ++ (textBytes e.1 ++ (int4 0 ++ textBytes e.2))) ++ int4 0))))))))))))

theorem Zone.headBytes_eq (z : Zone) : z.headBytes = leBytes 4 f299 ++ z.headRest := by
  unfold Zone.headBytes Zone.headRest zoneAuxBytes
  simp only [List.append_assoc]
  rfl

theorem zoneHead_read {z : Zone} (c : z.Clean) (r : Bytes) : zoneHead (z.headRest ++ r) = some (z.head, r) := by
  unfold zoneHead Zone.headRest
  simp only [List.append_assoc, Option.bind_eq_bind]
  have e0 : toU32 0 = 0 := rfl
  have e1 : toU32 (-1) = 4294967295 := rfl
  simp only [text_read c.name, Option.bind_some, expect_int, int32_int c.strand, int32_int c.max0, int32_int c.max1, int32_int c.max2, bits64_le, e0, e1, if_true]
  rw [pairs_read 1 (by decide) z.Auxiliary c.aux (int4 0 ++ r) (by rw [expect_int]; rfl) _ (length_many 1 _ _ _)]
  simp only [Option.bind_some, expect_int, e0, if_true]
  rfl

structure TecFile.Clean (f : TecFile) : Prop where
  type : InI32 f.FileType
  title : (0 : Byte) ∉ f.Title
  count : f.Variables.length < 4294967296
  vars : ∀ v ∈ f.Variables, (0 : Byte) ∉ v
  zones : ∀ z ∈ f.Zones, z.Clean
  aux : PairsClean f.Auxiliary

def TecFile.head (f : TecFile) : Head := ⟨f.FileType, f.Title, f.Variables, f.Zones.map Zone.head, f.Auxiliary⟩

theorem readHead_read {f : TecFile} (c : f.Clean) (r : Bytes) : readHead (f.headBytes ++ (leBytes 4 f357 ++ r)) = some (f.head, r) := by
  unfold readHead TecFile.headBytes fileAuxBytes
  simp only [List.append_assoc, Option.bind_eq_bind]
  rw [next_append (by rfl)]
  simp only [Option.bind_some]
  rw [if_pos (by decide)]
  have e1 : toU32 1 = 1 := rfl
  simp only [expect_int, e1, if_true, Option.bind_some, int32_int c.type, text_read c.title, word_int c.count, texts_read f.Variables c.vars]
  have ez : f.Zones.flatMap Zone.headBytes = f.Zones.flatMap (fun z => leBytes 4 0x43958000 ++ z.headRest) :=
    List.flatMap_congr fun z _ => Zone.headBytes_eq z
  have ea : ∀ r, f.Auxiliary.flatMap (fun e => leBytes 4 f799 ++ (textBytes e.1 ++ (int4 0 ++ textBytes e.2))) ++ r =
      f.Auxiliary.flatMap (fun e => leBytes 4 0x4447C000 ++ (textBytes e.1 ++ (int4 0 ++ textBytes e.2))) ++ r := fun _ => rfl
  have h3 : expect 0x43958000 (leBytes 4 f357 ++ r) = none := by rw [expect_le (by decide)]; rfl
  have h4 : expect 0x4447C000 (leBytes 4 f357 ++ r) = none := by rw [expect_le (by decide)]; rfl
  have h5 : expect 0x43958000 (f.Auxiliary.flatMap (fun e => leBytes 4 0x4447C000 ++ (textBytes e.1 ++ (int4 0 ++ textBytes e.2))) ++ (leBytes 4 f357 ++ r)) = none := by
    cases f.Auxiliary with
    | nil => exact h3
    | cons e m => rw [List.flatMap_cons, List.append_assoc, List.append_assoc, expect_le (by decide)]; rfl
  rw [ez, ea, many_read (item := zoneHead) Zone.headRest Zone.head f.Zones _ (by decide) (fun z hz r => zoneHead_read (c.zones z hz) r) h5 _ (length_many _ _ _ _)]
  simp only [Option.bind_some]
  rw [pairs_read _ (by decide) f.Auxiliary c.aux _ h4 _ (length_many _ _ _ _)]
  simp only [Option.bind_some]
  rw [show (0x43B28000 : Nat) = f357 from rfl, expect_le (by decide), if_pos rfl]
  rfl

end Verif.Tec
