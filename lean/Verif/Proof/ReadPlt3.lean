import Verif.Proof.ReadPlt2
/-!
# When `read_plt` throws
-/
set_option linter.unusedSimpArgs false
namespace Verif
open Spec Tec
variable {V : Type}

theorem findVar_eq (A : ReadArgs) : A.findVar =
    match A.log.Variables.idxOf? A.name with
    | none => .err (.text (lit "error when finding variables " ++ A.name ++ lit " in: " ++ A.log.FileName))
    | some v => .ok v := by
  unfold ReadArgs.findVar
  rw [List.idxOf?]
  cases h : List.findIdx? (fun x => x == A.name) A.log.Variables with
  | none =>
    rw [List.findIdx?_eq_none_iff_findIdx_eq] at h
    simp only [h, if_true]
  | some v =>
    rw [List.findIdx?_eq_some_iff_findIdx_eq] at h
    simp only [h.2]
    rw [if_neg (by omega)]

/-- the second half of `readErr` -/
def loadErr (A : ReadArgs) (z : ZoneLog) (cnt : Nat) (room : Nat → Bool) : Option Err :=
  match A.log.Variables.idxOf? A.name with
  | none => some (.text (lit "error when finding variables " ++ A.name ++ lit " in: " ++ A.log.FileName))
  | some v =>
    match z.Data[v]? with
    | none => none
    | some d =>
      let n := cnt * d.size
      match A.fs (cstr (pltName A)), d.file_pt with
      | _, none => none
      | none, _ => some (.text (lit "error when opening file: " ++ pltName A))
      | some c, some pt =>
        if pt < 0 then some (.text (lit "error when opening file: " ++ pltName A))
        else if room n = false then some .noMemory
        else if (c.drop pt.toNat).length < n then some (.text (lit "error when reading file " ++ pltName A))
        else if d.type = .float ∨ d.type = .double then none
        else some (.text (lit "tec_file data type error"))

theorem readErr_eq (chk : Bool) (N : Nat) (ins : List Int) (A : ReadArgs) (room : Nat → Bool) (nn : Nat) :
    readErr chk N ins A room nn =
      if chk = true ∧ N ≤ nn then some (.nRange nn N)
      else match A.log.Zones[A.zone]? with
      | none => some (.text (lit "zone number is too big"))
      | some z =>
        if ¬ Within (fileSizes ins.length z) ins then some (.text (lit "N_file is bigger than N_in or equal to 0"))
        else loadErr A z (prod (fileSizes ins.length z)) room := rfl

/-- what is known when there is nothing to complain about -/
structure Found (A : ReadArgs) (z : ZoneLog) (cnt : Nat) (b : Heap Byte) (v : Nat) (d : DataLog) (c : Str) (pt : Nat) : Prop where
  name : A.log.Variables.idxOf? A.name = some v
  data : z.Data[v]? = some d
  file : A.fs (cstr (pltName A)) = some c
  at_ : d.file_pt = some (pt : Int)
  room : b.mem b.next (cnt * d.size) = true
  len : cnt * d.size ≤ (c.drop pt).length
  type : d.type = .float ∨ d.type = .double

theorem load_when {A : ReadArgs} {z : ZoneLog} {cnt : Nat} {loop : Ptr → Bool → M (RSt V) Unit} (ok : LogOk A.log)
    (hz : z ∈ A.log.Zones) (hc : cnt < 4294967296) {s : RSt V} (fr : Fresh s.b) :
    match loadErr A z cnt (fun n => s.b.mem s.b.next n) with
    | some e => ∃ b', A.load z cnt loop s = .err e ⟨s.h, b'⟩ ∧ SameBlocks s.b b'
    | none => ∃ v d c pt, Found A z cnt s.b v d c pt ∧
        A.load z cnt loop s = (loop (.at s.b.next 0) (decide (d.type = .double)) >>= fun _ => RSt.bytes (Heap.delArr (.at s.b.next 0)))
          ⟨s.h, bufHeap s.b (cnt * d.size) ((c.drop pt).take (cnt * d.size))⟩ := by
  unfold ReadArgs.load loadErr
  rw [findVar_eq]
  simp only [M.monadLift_eq, M.liftM_eq]
  cases hv : A.log.Variables.idxOf? A.name with
  | none => exact ⟨s.b, rfl, rfl, rfl, Nat.le_refl _⟩
  | some v =>
    have hv' : v < z.Data.length := by
      rw [ok.data z hz]
      rw [List.idxOf?, List.findIdx?_eq_some_iff_findIdx_eq] at hv
      exact hv.1
    have hd : z.Data[v]? = some z.Data[v] := List.getElem?_eq_getElem hv'
    have hm : z.Data[v] ∈ z.Data := List.getElem_mem hv'
    have hpt := ok.at_ z hz _ hm
    have hsz := ok.size z hz _ hm
    revert hd hpt hsz
    generalize z.Data[v] = d
    intro hd hpt hsz
    have hw : cnt * d.size < 9223372036854775808 := by
      have := Nat.mul_le_mul (show cnt ≤ 4294967295 by omega) (show d.size ≤ 2147483647 by omega)
      omega
    have hu : u64 (cnt * d.size) = cnt * d.size := by unfold u64; omega
    simp only [M.lift_ok, pure_bind, ReadArgs.dataLog, hd]
    cases hp : d.file_pt with
    | none => rw [hp] at hpt; simp at hpt
    | some pt =>
      have hpath : A.path = pltName A := rfl
      simp only [ReadArgs.openAt, hp, hpath]
      cases hf : A.fs (cstr (pltName A)) with
      | none => exact ⟨s.b, rfl, rfl, rfl, Nat.le_refl _⟩
      | some c =>
        simp only
        by_cases h0 : pt < 0
        · simp only [h0, if_true]; exact ⟨s.b, rfl, rfl, rfl, Nat.le_refl _⟩
        · simp only [h0, if_false, M.lift_ok, pure_bind]
          have R := readBuf_run A d cnt (c.drop pt.toNat) fr
          rw [hu] at R
          rw [List.length_drop] at R
          rcases R with ⟨r1, r2, r3, r4⟩ | ⟨b', hs, ⟨r1, r2⟩ | ⟨r1, r2, r3⟩⟩
          · have h' : RSt.bytes (A.readBuf d cnt (c.drop pt.toNat)) s = .ok (.at s.b.next 0)
                ⟨s.h, bufHeap s.b (cnt * d.size) ((c.drop pt.toNat).take (cnt * d.size))⟩ := by
              unfold RSt.bytes; rw [r4]
            rw [M.bind_ok h', if_neg (by simp [r2]), if_neg (by rw [List.length_drop]; omega)]
            by_cases ht : d.type = .float ∨ d.type = .double
            · rw [if_pos ht]
              refine ⟨v, d, c, pt.toNat, ⟨hv, hd, hf, by rw [hp]; congr 1; omega, r2, by rw [List.length_drop]; omega, ht⟩, ?_⟩
              unfold byType
              rcases ht with ht | ht <;> simp [ht, TecType.code]
            · rw [if_neg ht]
              obtain ⟨b', d1, d2⟩ := bufHeap_del fr (cnt * d.size) ((c.drop pt.toNat).take (cnt * d.size))
              refine ⟨b', ?_, d2⟩
              have c1 : d.type.code ≠ 1 ∧ d.type.code ≠ 2 := by
                revert ht; cases d.type <;> simp [TecType.code]
              unfold byType
              rw [if_neg c1.1, if_neg c1.2, M.bind_run]
              unfold RSt.bytes
              simp only [d1, M.throw]
          · have h' : RSt.bytes (A.readBuf d cnt (c.drop pt.toNat)) s = .err .noMemory { s with b := b' } := by
              unfold RSt.bytes; rw [r2]
            have hr : s.b.mem s.b.next (cnt * d.size) = false := by
              cases hh : s.b.mem s.b.next (cnt * d.size) with
              | true => exact (r1 ⟨hw, hh⟩).elim
              | false => rfl
            rw [M.bind_err h', if_pos hr]
            exact ⟨b', rfl, hs⟩
          · have h' : RSt.bytes (A.readBuf d cnt (c.drop pt.toNat)) s = .err (.text (lit "error when reading file " ++ A.path)) { s with b := b' } := by
              unfold RSt.bytes; rw [r3]
            rw [M.bind_err h', if_neg (by simp [r1.2]), if_pos (by rw [List.length_drop]; omega)]
            exact ⟨b', rfl, hs⟩
end Verif
