import Verif.Proof.ReadPlt4
import Verif.Props.Access
/-!
# `read_plt`: C40 and the reading half of C39
-/
namespace Verif.Props
open Spec Tec
variable {V : Type} {mem : Nat → Nat → Bool} {chk : Bool} {w : World V} {aw : AWorld V}

/-- C40: if `read_plt` throws, whatever the array, the log, the file and the available memory, then no array has
changed and the buffer has been given back; if it returns, the buffer has been given back as well. -/
theorem C40 (c : Bool) (C : Num V) (A : ReadArgs) (x nn : Nat) (s : World V × Heap Byte) (fr : Fresh s.2) :
    (∀ e s', World.read_plt c C A x nn s = .err e s' → s'.1 = s.1 ∧ s'.2.blk = s.2.blk) ∧
    (∀ u s', World.read_plt c C A x nn s = .ok u s' → s'.2.blk = s.2.blk) :=
  have h := World.read_clean c C A x nn s fr
  ⟨fun e s' r => ⟨(h.2 e s' r).2, (h.2 e s' r).1.1⟩, fun u s' r => (h.1 u s' r).1⟩

/-- C40: exactly which exception is thrown when, for arrays in any reachable state and logs that describe all
variables; no exception means a return or (for a log or an array state nobody checks) undefined behaviour -/
theorem C40_when (R : Reach mem chk w aw) (c : Bool) (C : Num V) {A : ReadArgs} (ok : LogOk A.log) {x : Nat} {k : Kind}
    {a : AArr V} (hx : aw.arr x = some (k, a)) (nn : Nat) {b : Heap Byte} (fr : Fresh b) (e : Err) :
    readErr c k.N (interior k a) A (fun n => b.mem b.next n) nn = some e ↔
      ∃ s', World.read_plt c C A x nn (w, b) = .err e s' := by
  obtain ⟨L, R⟩ := R.rel
  obtain ⟨o, hb, h0, r, Q⟩ := R.read_run c C ok hx nn fr
  cases hr : readErr c k.N (interior k a) A (fun n => b.mem b.next n) nn with
  | some e' =>
    rw [hr] at Q
    obtain ⟨b', q, -⟩ := Q
    constructor
    · intro h; cases h; exact ⟨_, q⟩
    · rintro ⟨s', h⟩; rw [q] at h; cases h; rfl
  | none =>
    rw [hr] at Q
    obtain ⟨z, v, d, cc, pt, -, -, -, run⟩ := Q
    refine ⟨fun h => (nomatch h), fun ⟨s', h⟩ => ?_⟩
    unfold World.read_plt at h
    simp only [hb] at h
    rw [run, M.bind_run] at h
    have T := Tame.runAll (fun xs => readAt_tame k C nn o (.at b.next 0) (decide (d.type = .double))
      (fileSizes (interior k a).length z) xs) (grid (fileSizes (interior k a).length z))
      ⟨w.h, bufHeap b (prod (fileSizes (interior k a).length z) * d.size)
        ((cc.drop pt).take (prod (fileSizes (interior k a).length z) * d.size))⟩
    cases hl : runAll (o.readAt k C nn (.at b.next 0) (decide (d.type = .double)) (fileSizes (interior k a).length z))
        (grid (fileSizes (interior k a).length z)) ⟨w.h, bufHeap b (prod (fileSizes (interior k a).length z) * d.size)
          ((cc.drop pt).take (prod (fileSizes (interior k a).length z) * d.size))⟩ with
    | ub u => rw [hl] at h; cases h
    | err e t => exact (T.2 e t hl).elim
    | ok u t =>
      have hb' := T.1 u t hl
      rw [hl] at h
      obtain ⟨b', d1, -⟩ := bufHeap_del fr (prod (fileSizes (interior k a).length z) * d.size)
        ((cc.drop pt).take (prod (fileSizes (interior k a).length z) * d.size))
      simp only [RSt.bytes] at h
      rw [hb', d1] at h
      cases h

/-- C39, the reading half: if there is nothing to complain about, component `nn` exists, the logged element size is
that of the logged type, and all numbers in the file can be converted, then `read_plt` returns.  Afterwards the
point of component `nn` with indices `0 ≤ y < N_file` in every dimension reads as the number the file has at the
position of the point, last index fastest.  Every other element of every array reads as before, no array changes
its sizes, and the buffer is given back. -/
theorem C39_read (R : Reach mem chk w aw) (c : Bool) (C : Num V) {A : ReadArgs} (ok : LogOk A.log) {x : Nat} {k : Kind}
    {es : List Ext} {val : Nat → List Int → Option V}
    (hx : aw.arr x = some (k, .ready es val)) {nn : Nat} (hn : nn < k.N) {b : Heap Byte} (fr : Fresh b)
    (hok : readErr c k.N (es.map fun e => (e.i : Int)) A (fun n => b.mem b.next n) nn = none)
    {z : ZoneLog} {v : Nat} {d : DataLog} {bytes : Str} {pt : Nat} (hz : A.log.Zones[A.zone]? = some z)
    (hv : A.log.Variables.idxOf? A.name = some v) (hd : z.Data[v]? = some d) (hc : A.fs (cstr (pltName A)) = some bytes)
    (hp : d.file_pt = some (pt : Int)) (hs : d.size = d.type.bytes)
    (conv : ∀ i < prod (fileSizes es.length z), (fileVal C d.type (bytes.drop pt) i).isSome) :
    ∃ w' b', World.read_plt c C A x nn (w, b) = .ok () (w', b') ∧ b'.blk = b.blk ∧
      (∀ ys gs, Valid k es nn ys gs → InBlock (fileSizes es.length z) (point ys gs) → ∀ c',
        exec c' (.read x nn ys gs) w' = .ok (.val (fileVal C d.type (bytes.drop pt) (rowOf (fileSizes es.length z) (point ys gs)))) w') ∧
      (∀ y k' es' val', aw.arr y = some (k', .ready es' val') → ∀ m ys gs, Valid k' es' m ys gs →
        ¬ (y = x ∧ m = nn ∧ InBlock (fileSizes es.length z) (point ys gs)) →
        ∀ c', ∃ b, exec c' (.read y m ys gs) w = .ok (.val b) w ∧ exec c' (.read y m ys gs) w' = .ok (.val b) w') ∧
      (∀ y k' a', aw.arr y = some (k', a') → ∀ c', ∃ l,
        exec c' (.size y) w = .ok (.sizes l) w ∧ exec c' (.size y) w' = .ok (.sizes l) w') := by
  obtain ⟨L, R⟩ := R.rel
  have hint : interior k (.ready es val) = es.map fun e => (e.i : Int) := by
    unfold interior sizesOf; rw [List.map_map]; rfl
  obtain ⟨w', b', h1, h2, R'⟩ := R.read_plt c C ok hx hn fr (by rw [hint]; exact hok) hz hv hd hc hp hs conv
  have rd : ∀ (m : Nat) (ys : List Int) (gs : List FL), Valid k es m ys gs → ∀ c',
      exec c' (.read x m ys gs) w' =
        .ok (.val (readVal nn (fileSizes es.length z) (fileVal C d.type (bytes.drop pt)) val m (point ys gs))) w' :=
    fun m ys gs v c' => R'.read c' (x := x) (by simp only [AWorld.set, if_true]) v
  refine ⟨w', b', h1, h2.1, ?_, ?_, ?_⟩
  · intro ys gs hv hi c'
    rw [rd _ _ _ hv]
    unfold readVal
    rw [if_pos ⟨rfl, hi⟩]
  · intro y k' es' val' hy m ys gs v' hne c'
    refine ⟨_, R.read c' hy v', ?_⟩
    by_cases hyx : y = x
    · subst hyx
      rw [hx] at hy; cases hy
      rw [rd _ _ _ v']
      unfold readVal
      rw [if_neg (fun h => hne ⟨rfl, h⟩)]
    · exact R'.read c' (x := y) (by simp only [AWorld.set, if_neg hyx]; exact hy) v'
  · intro y k' a' hy c'
    refine ⟨_, R.size c' hy, ?_⟩
    by_cases hyx : y = x
    · subst hyx
      rw [hx] at hy; cases hy
      have := R'.size c' (x := y) (by simp only [AWorld.set, if_true]; rfl)
      exact this
    · exact R'.size c' (x := y) (by simp only [AWorld.set, if_neg hyx]; exact hy)

/-! ## An example -/

/-- an array of 2 x 3 interior points with virtual points, two components -/
def readOps : List (Op Int) :=
  [.makeSized 0 ⟨2, [.center, .half]⟩ (fun _ => .null) [⟨1, 2, 0⟩, ⟨0, 3, 1⟩], .write 0 1 [0, 3] [.C, .N] 77]

/-- a log of a file `a/f.plt` with one zone of 2 x 2 points and two variables -/
def readLog (t : TecType) (size pt : Nat) : FileLog where
  FilePath := lit "x"
  FileName := lit "f"
  Title := lit "t"
  Variables := [lit "u", lit "v"]
  FileType := 0
  Auxiliary := []
  Zones := [{ ZoneName := lit "z", StrandId := -1, SolutionTime := 0, Max := ⟨2, 2, 1⟩, Skip := ⟨1, 1, 1⟩, Begin := ⟨0, 0, 0⟩,
              End := ⟨0, 0, 0⟩, Dim := 2, Real_Max := ⟨2, 2, 1⟩, Real_Dim := 2, noskip := true, noexc := true, Auxiliary := [],
              Data := [⟨.double, 8, some 0, none, none⟩, ⟨t, size, some (pt : Int), none, none⟩] }]

/-- 1 byte, then the numbers 5, 6, 7, 8 in four bytes each -/
def readFile : Str := [9, 5, 0, 0, 0, 6, 0, 0, 0, 7, 0, 0, 0, 8, 0, 0, 0]

def readArgs (name : Str) (t : TecType) (size pt : Nat) : ReadArgs where
  fs := fun p => if p = lit "a/f.plt" then some readFile else none
  root := lit "a"
  log := readLog t size pt
  zone := 0
  name := name

/-- bit patterns taken as numbers -/
def bitsNum : Num Int := ⟨fun b => some b.toNat, fun b => some b.toNat⟩

def readHeap : Heap Byte := ⟨fun _ => none, 0, fun _ n => decide (n < 1000)⟩

/-- the rows -1, 0, 1 of component 1 after the call -/
def readRun (A : ReadArgs) (nn : Nat) : Option (Except Err (List (List (Option Int)))) :=
  match run true readOps (World.init fun _ _ => true) with
  | some (_, w) =>
    match World.read_plt true bitsNum A 0 nn (w, readHeap) with
    | .ok _ (w', _) => some <| .ok <| [-1, 0, 1].map fun i => [0, 1, 2, 3].map fun j =>
        match exec true (.read 0 1 [i, j] [.C, .N]) w' with
        | .ok (.val b) _ => b
        | _ => some 99
    | .err e _ => some (.error e)
    | .ub _ => none
  | none => none

/-- whether the call is undefined -/
def readUb (chk : Bool) (A : ReadArgs) (nn : Nat) : Option UB :=
  match run chk readOps (World.init fun _ _ => true) with
  | some (_, w) =>
    match World.read_plt chk bitsNum A 0 nn (w, readHeap) with
    | .ub u => some u
    | _ => none
  | none => none

theorem readLog_ok (t : TecType) {size : Nat} (h : size < 2147483648) (pt : Nat) : LogOk (readLog t size pt) := by
  refine ⟨?_, ?_, ?_, ?_⟩ <;> simp [readLog, InI32, h]

/-- the hypotheses of C39_read hold of this array and file, and what is read: the point `(i, j)` gets the number at
position `2 * i + j` -/
example : (∃ (w : World Int) (aw : AWorld Int) (val : _), Reach (fun _ _ => true) true w aw ∧
      aw.arr 0 = some (⟨2, [.center, .half]⟩, .ready [⟨1, 2, 0⟩, ⟨0, 3, 1⟩] val)) ∧
    Fresh readHeap ∧ LogOk (readLog .float 4 1) ∧
    readErr true 2 ([⟨1, 2, 0⟩, ⟨0, 3, 1⟩].map fun e : Ext => (e.i : Int)) (readArgs (lit "v") .float 4 1)
      (fun n => readHeap.mem readHeap.next n) 1 = none ∧
    (∀ i < 4, (fileVal bitsNum .float (readFile.drop 1) i).isSome) ∧
    readRun (readArgs (lit "v") .float 4 1) 1 =
      some (.ok [[none, none, none, none], [some 5, some 6, none, some 77], [some 7, some 8, none, none]]) := by
  refine ⟨?_, fun _ _ => rfl, readLog_ok _ (by decide) _, by decide +kernel, ?_, by decide +kernel⟩
  · obtain ⟨evs, aw, val, h, h0⟩ : ∃ evs aw val, arun (fun _ _ => true) true readOps AWorld.init = some (evs, aw) ∧
        aw.arr 0 = some (⟨2, [.center, .half]⟩, .ready [⟨1, 2, 0⟩, ⟨0, 3, 1⟩] val) := ⟨_, _, _, rfl, rfl⟩
    obtain ⟨w, R⟩ := reach_of_arun h
    exact ⟨w, aw, val, R, h0⟩
  · intro i _; rfl

/-- the exceptions of C40 on this array -/
example :
    readRun (readArgs (lit "v") .float 4 1) 2 = some (.error (.nRange 2 2)) ∧
    readRun { readArgs (lit "v") .float 4 1 with zone := 1 } 1 = some (.error (.text (lit "zone number is too big"))) ∧
    readRun (readArgs (lit "w") .float 4 1) 1 = some (.error (.text (lit "error when finding variables w in: f"))) ∧
    readRun { readArgs (lit "v") .float 4 1 with root := lit "b" } 1 =
      some (.error (.text (lit "error when opening file: b/f.plt"))) ∧
    readRun (readArgs (lit "v") .float 400 1) 1 = some (.error .noMemory) ∧
    readRun (readArgs (lit "v") .float 4 2) 1 = some (.error (.text (lit "error when reading file a/f.plt"))) ∧
    readRun (readArgs (lit "v") .longint 4 1) 1 = some (.error (.text (lit "tec_file data type error"))) := by
  refine ⟨?_, ?_, ?_, ?_, ?_, ?_, ?_⟩ <;> decide +kernel

/-- The logged size matters: with a size that is not that of the type the loop reads behind the buffer.  This is why
`C39_read` asks for `d.size = d.type.bytes`; `read_plt` does not check it. -/
theorem C40_size : readErr true 2 [2, 3] (readArgs (lit "v") .float 1 1) (fun n => readHeap.mem readHeap.next n) 1 = none ∧
    readUb true (readArgs (lit "v") .float 1 1) 1 = some .oob := by
  constructor <;> decide +kernel

/-- A component that does not exist is not noticed without range checks: the write goes through a pointer nobody set. -/
theorem C40_component : readErr false 2 [2, 3] (readArgs (lit "v") .float 4 1) (fun n => readHeap.mem readHeap.next n) 2 = none ∧
    readUb false (readArgs (lit "v") .float 4 1) 2 = some .oob := by
  constructor <;> decide +kernel

end Verif.Props
