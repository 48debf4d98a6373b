import Verif.Proof.XPool2
import Mathlib.Data.List.Nodup
import Mathlib.Data.List.Perm.Subperm
import Mathlib.Data.List.Range
/-! # `MemPoolT` hands out items that are not in use -/
namespace Verif.Proof
open Verif.Xml Verif.Xml.Pool Verif.Spec.Items

theorem mp_make (per : Nat) : Holds per make start [] [] where
  ptrs := da_make 10 (by decide)
  once := List.nodup_nil
  live := fun b => by simp [make]
  old := fun b hb => absurd hb List.not_mem_nil
  free := .nil
  apart := List.nodup_nil
  all := fun it => by simp [start]
  kept := fun it hi => absurd hi List.not_mem_nil
  cur := rfl
  n := rfl
  max := rfl
  untracked := rfl
  count := Nat.le_refl 0
  int := by decide

theorem linked_congr {f g : Item → Cell} {p : Option Item} {l : List Item} (h : Linked f p l) : (∀ it ∈ l, g it = f it) → Linked g p l := by
  induction h with
  | nil => intro _; exact .nil
  | cons e _ ih => intro hc; exact .cons ((hc _ (List.mem_cons_self ..)).trans e) (ih fun it hi => hc it (List.mem_cons_of_mem _ hi))

theorem mp_rd {per : Nat} {p : MP} {it : Item} (h : p.live it.1 = true) (hi : it.2 < per) : rdItem per it p = .ok (p.item it) p := by
  unfold rdItem
  rw [if_neg (by rw [h]; simp), if_neg (by omega)]

theorem mp_wr {per : Nat} {p : MP} {it : Item} (h : p.live it.1 = true) (hi : it.2 < per) (c : Cell) :
    wrItem per it c p = .ok () { p with item := fun q => if q = it then c else p.item q } := by
  unfold wrItem
  rw [if_neg (by rw [h]; simp), if_neg (by omega)]

/-- what the loop leaves behind -/
theorem mp_link (per b : Nat) (m : Nat) : ∀ (i : Nat) (p : MP), p.live b = true → i + m < per →
    linkItems per b m i p = .ok () { p with item := fun q => if q.1 = b ∧ i ≤ q.2 ∧ q.2 < i + m then .link (some (b, q.2 + 1)) else p.item q } := by
  induction m with
  | zero =>
    intro i p _ _
    show Res.ok () p = _
    congr 1
    have : (fun q : Item => if q.1 = b ∧ i ≤ q.2 ∧ q.2 < i + 0 then Cell.link (some (b, q.2 + 1)) else p.item q) = p.item := by
      funext q
      rw [if_neg (by omega)]
    rw [this]
  | succ m ih =>
    intro i p hl hi
    unfold linkItems
    rw [M.bind_ok (mp_wr (it := (b, i)) hl (by show i < per; omega) _)]
    refine (ih (i + 1) _ (by exact hl) (by omega)).trans ?_
    congr 2
    funext q
    dsimp only
    by_cases h1 : q.1 = b ∧ i + 1 ≤ q.2 ∧ q.2 < i + 1 + m
    · rw [if_pos h1, if_pos ⟨h1.1, by omega, by omega⟩]
    · rw [if_neg h1]
      by_cases h2 : q = (b, i)
      · subst h2
        rw [if_pos rfl, if_pos ⟨rfl, Nat.le_refl _, by show i < i + (m + 1); omega⟩]
      · rw [if_neg h2, if_neg]
        rintro ⟨ha, hb, hc⟩
        rcases Nat.lt_or_ge i q.2 with hlt | hge
        · exact h1 ⟨ha, by omega, by omega⟩
        · exact h2 (Prod.ext ha (by show q.2 = i; omega))

theorem linked_block (b per : Nat) (f : Item → Cell) (hf : ∀ i, i + 1 < per → f (b, i) = .link (some (b, i + 1))) (hl : f (b, per - 1) = .link none) :
    ∀ m i, i + m + 1 = per → Linked f (some (b, i)) ((List.range' i (m + 1)).map (Prod.mk b)) := by
  intro m
  induction m with
  | zero =>
    intro i hi
    have : i = per - 1 := by omega
    subst this
    exact .cons hl .nil
  | succ m ih =>
    intro i hi
    rw [List.range'_succ, List.map_cons]
    exact .cons (hf i (by omega)) (ih (i + 1) (by omega))

variable {per : Nat} {p : MP} {s : St} {bl : List Nat} {fl : List Item}

theorem mp_used (h : Holds per p s bl fl) {it : Item} (hi : it ∈ s.used) : p.live it.1 = true ∧ it.2 < per := by
  obtain ⟨h1, h2⟩ := (h.all it).1 (List.mem_append_right _ hi)
  exact ⟨(h.live _).2 h1, h2⟩

/-- the number of blocks, when all items are in use -/
theorem mp_blocks (h : Holds per p s bl []) (hper : 0 < per) : bl.length ≤ s.used.length := by
  have hsub : bl.map (fun b => ((b, 0) : Item)) ⊆ s.used := by
    intro it hi
    obtain ⟨b, hb, rfl⟩ := List.mem_map.1 hi
    simpa using (h.all (b, 0)).2 ⟨hb, hper⟩
  have hnd : (bl.map (fun b => ((b, 0) : Item))).Nodup := h.once.map fun a b e => (Prod.mk.inj e).1
  have := (hnd.subperm hsub).length_le
  simpa using this

/-- a new block: the items of it are free -/
theorem mp_addBlock (h : Holds per p s bl []) (hper : 0 < per) (hn : ((bl.length + 1 : Nat) : Int) * 2 ≤ INT_MAX) :
    ∃ p' bl' fl', addBlock per (fun _ => true) (fun _ => true) p = .ok () p' ∧ Holds per p' s bl' fl' ∧ fl' ≠ [] ∧ bl'.length ≤ bl.length + 1 := by
  unfold addBlock
  have e₁ : newBlock (fun _ => true) p = .ok p.asked { p with asked := p.asked + 1, live := fun q => if q = p.asked then true else p.live q } := by
    unfold newBlock; rw [if_neg (by simp)]
  rw [M.bind_ok e₁]
  have hnew : p.asked ∉ bl := fun hx => absurd (h.old _ hx) (Nat.lt_irrefl _)
  obtain ⟨d, ed, hd, -⟩ := da_push h.ptrs (fun _ => true) p.asked fun _ => by rw [List.length_map]; exact ⟨hn, rfl⟩
  have e₂ : onPtrs (Dyn.Push (fun _ => true) p.asked) { p with asked := p.asked + 1, live := fun q => if q = p.asked then true else p.live q } =
      .ok () { p with ptrs := d, asked := p.asked + 1, live := fun q => if q = p.asked then true else p.live q } := by
    unfold onPtrs; dsimp only; rw [ed]
  rw [M.bind_ok e₂, M.bind_ok (mp_link per p.asked (per - 1) 0 _ (if_pos rfl) (by omega)), M.bind_ok (mp_wr (it := (p.asked, per - 1)) (if_pos rfl) (by show per - 1 < per; omega) _),
    M.modify_run]
  have hl : ∀ it ∈ s.used, it.1 ≠ p.asked := fun it hi he => hnew (he ▸ ((h.all it).1 (List.mem_append_right _ hi)).1)
  have hlink := linked_block p.asked per (fun q => if q = (p.asked, per - 1) then .link none else
      if q.1 = p.asked ∧ 0 ≤ q.2 ∧ q.2 < 0 + (per - 1) then .link (some (p.asked, q.2 + 1)) else p.item q)
    (fun i hi => by
      dsimp only
      rw [if_neg (by intro e; have := (Prod.mk.inj e).2; omega), if_pos ⟨rfl, Nat.zero_le _, by omega⟩])
    (by simp) (per - 1) 0 (by omega)
  rw [show per - 1 + 1 = per by omega] at hlink
  refine ⟨_, bl ++ [p.asked], (List.range' 0 per).map (Prod.mk p.asked), rfl, ?_, by simp; omega, by simp⟩
  constructor
  · rw [List.map_append]; exact hd
  · exact List.nodup_append.2 ⟨h.once, List.nodup_singleton _, by rintro a ha b hb rfl; exact hnew (by simpa using List.mem_singleton.1 hb ▸ ha)⟩
  · intro b
    dsimp only
    by_cases hb : b = p.asked
    · simp [hb]
    · rw [if_neg hb, h.live]; simp [hb]
  · intro b hb
    rcases List.mem_append.1 hb with hb | hb
    · exact Nat.lt_succ_of_lt (h.old b hb)
    · rw [List.mem_singleton.1 hb]; exact Nat.lt_succ_self _
  · exact hlink
  · refine List.nodup_append.2 ⟨(List.nodup_range').map fun a b e => (Prod.mk.inj e).2, by simpa using h.apart, ?_⟩
    rintro a ha b hb rfl
    obtain ⟨i, -, rfl⟩ := List.mem_map.1 ha
    exact hl _ hb rfl
  · intro it
    rw [List.mem_append, List.mem_map]
    have h0 := h.all it
    rw [List.nil_append] at h0
    constructor
    · rintro (⟨i, hi, rfl⟩ | hi)
      · rw [List.mem_range'_1] at hi
        exact ⟨by simp, by omega⟩
      · exact ⟨List.mem_append_left _ (h0.1 hi).1, (h0.1 hi).2⟩
    · rintro ⟨h1, h2⟩
      rcases List.mem_append.1 h1 with h1 | h1
      · exact Or.inr (h0.2 ⟨h1, h2⟩)
      · refine Or.inl ⟨it.2, by rw [List.mem_range'_1]; omega, ?_⟩
        rw [← List.mem_singleton.1 h1]
  · intro it hi v hv
    dsimp only
    rw [if_neg (fun e => hl it hi (by rw [e])), if_neg (fun e => hl it hi e.1)]
    exact h.kept it hi v hv
  · exact h.cur
  · exact h.n
  · exact h.max
  · exact h.untracked
  · exact h.count
  · exact h.int

theorem mp_i32 {x : Int} (h : -2147483648 ≤ x) (h' : x ≤ INT_MAX) {β : Type} (f : Int → M MP β) (p : MP) : ((liftM (i32 x) : M MP Int) >>= f) p = f x p := by
  rw [i32_ok ⟨h, h'⟩]; rfl

/-- an item is taken from the free ones -/
theorem mp_take {it : Item} (h : Holds per p s bl (it :: fl)) (hn : (s.n : Int) < INT_MAX) :
    ∃ p', takeItem per p = .ok it p' ∧ Holds per p' { s with used := it :: s.used, mem := (fun q => if q = it then none else s.mem q), n := s.n + 1, most := max s.most (s.used.length + 1) } bl fl := by
  have hm := h.free
  generalize hroot : p.root = rt at hm
  cases hm with
  | @cons _ nx _ e hl =>
  obtain ⟨h1, h2⟩ := (h.all it).1 (by simp)
  have hcur := h.cur
  have hpn := h.n
  have hun := h.untracked
  have hc := h.count
  have hit := h.int
  unfold takeItem
  rw [M.get_bind_run, hroot]
  dsimp only
  have er : rdNext per it p = .ok nx p := by
    unfold rdNext
    rw [M.bind_ok (mp_rd ((h.live _).2 h1) h2), e]; rfl
  rw [M.bind_ok er, mp_i32 (by omega) (by omega), mp_i32 (by omega) (by omega), mp_i32 (by unfold INT_MAX at *; omega) (by omega), M.modify_bind_run]
  have hap := h.apart
  have hnot : it ∉ s.used := fun hx => by
    rw [List.cons_append, List.nodup_cons] at hap
    exact hap.1 (List.mem_append_right _ hx)
  refine ⟨_, rfl, ⟨h.ptrs, h.once, h.live, h.old, hl, ?_, ?_, ?_, ?_, ?_, ?_, ?_, ?_, ?_⟩⟩
  · exact (List.nodup_middle.2 (by simpa using hap))
  · intro q
    rw [← h.all q]
    simp only [List.mem_append, List.mem_cons]
    exact or_left_comm.trans or_assoc.symm
  · intro q hq v hv
    dsimp only at hv
    by_cases hqi : q = it
    · rw [if_pos hqi] at hv; cases hv
    · rw [if_neg hqi] at hv
      rcases List.mem_cons.1 hq with hx | hx
      · exact absurd hx hqi
      · exact h.kept q hx v hv
  · dsimp only; rw [hcur]; simp
  · dsimp only; rw [hpn]; simp
  · dsimp only
    rw [hcur, h.max]
    split_ifs <;> omega
  · dsimp only; rw [hun]; push_cast; omega
  · simp; omega
  · dsimp only; exact ⟨by push_cast; omega, hit.2⟩

theorem mp_alloc (h : Holds per p s bl fl) (hper : 0 < per) (hm : may s .alloc) :
    ∃ it p' bl' fl', Alloc per (fun _ => true) (fun _ => true) p = .ok it p' ∧ it ∉ s.used ∧ (fl ≠ [] → fl = it :: fl') ∧ bl'.length ≤ bl.length + 1 ∧
      Holds per p' { s with used := it :: s.used, mem := (fun q => if q = it then none else s.mem q), n := s.n + 1, most := max s.most (s.used.length + 1) } bl' fl' := by
  unfold Alloc
  rw [M.get_bind_run]
  have hnot : ∀ {bl : List Nat} {p : MP} {it : Item} {fl : List Item}, Holds per p s bl (it :: fl) → it ∉ s.used := fun h hx => by
    have hap := h.apart
    rw [List.cons_append, List.nodup_cons] at hap
    exact hap.1 (List.mem_append_right _ hx)
  cases fl with
  | nil =>
    have hroot : p.root = none := by
      have := h.free
      generalize p.root = r at this
      cases this; rfl
    rw [hroot]
    dsimp only
    have hb := mp_blocks h hper
    obtain ⟨p₁, bl₁, fl₁, e₁, h₁, hne, hlen⟩ := mp_addBlock h hper (by have := hm.2; push_cast at this ⊢; omega)
    obtain ⟨it, fl₂, rfl⟩ := List.exists_cons_of_ne_nil hne
    obtain ⟨p₂, e₂, h₂⟩ := mp_take h₁ hm.1
    exact ⟨it, p₂, bl₁, fl₂, (M.bind_ok e₁).trans e₂, hnot h₁, fun hx => absurd rfl hx, hlen, h₂⟩
  | cons it fl =>
    have hroot : p.root = some it := by
      have := h.free
      generalize p.root = r at this
      cases this; rfl
    rw [hroot]
    dsimp only
    obtain ⟨p₂, e₂, h₂⟩ := mp_take h hm.1
    exact ⟨it, p₂, bl, fl, e₂, hnot h, fun _ => rfl, Nat.le_succ _, h₂⟩

theorem mp_free (h : Holds per p s bl fl) {it : Item} (hi : it ∈ s.used) :
    ∃ p', Free per (some it) p = .ok () p' ∧ Holds per p' { s with used := s.used.erase it } bl (it :: fl) := by
  obtain ⟨h1, h2⟩ := mp_used h hi
  have hcur := h.cur
  have hc := h.count
  have hit := h.int
  have hpos : 0 < s.used.length := List.length_pos_of_mem hi
  unfold Free
  dsimp only
  rw [M.get_bind_run, mp_i32 (by omega) (by omega), M.bind_ok (mp_wr h1 h2 _), M.modify_run]
  have hap := h.apart
  obtain ⟨hf, hu, hd⟩ := List.nodup_append.1 hap
  have hnf : it ∉ fl := fun hx => hd it hx it hi rfl
  refine ⟨_, rfl, ⟨h.ptrs, h.once, h.live, h.old, ?_, ?_, ?_, ?_, ?_, h.n, h.max, h.untracked, ?_, h.int⟩⟩
  · refine .cons (if_pos rfl) (linked_congr h.free fun q hq => if_neg fun (e : q = it) => hnf (e ▸ hq))
  · rw [List.cons_append, List.nodup_cons]
    refine ⟨?_, List.nodup_append.2 ⟨hf, hu.erase it, fun a ha b hb => hd a ha b (List.mem_of_mem_erase hb)⟩⟩
    rw [List.mem_append]
    rintro (hx | hx)
    · exact hnf hx
    · exact absurd hx (by rw [hu.mem_erase_iff]; simp)
  · intro q
    rw [← h.all q]
    simp only [List.cons_append, List.mem_cons, List.mem_append, hu.mem_erase_iff]
    by_cases hq : q = it
    · subst hq; simp [hi]
    · simp [hq]
  · intro q hq v hv
    rw [hu.mem_erase_iff] at hq
    dsimp only
    rw [if_neg hq.1]
    exact h.kept q hq.2 v hv
  · dsimp only
    rw [hcur, List.length_erase_of_mem hi]
    omega
  · dsimp only
    rw [List.length_erase_of_mem hi]
    omega

theorem mp_write (h : Holds per p s bl fl) {it : Item} (hi : it ∈ s.used) (v : Nat) :
    ∃ p', write per it v p = .ok () p' ∧ Holds per p' { s with mem := fun q => if q = it then some v else s.mem q } bl fl := by
  obtain ⟨h1, h2⟩ := mp_used h hi
  have hnf : it ∉ fl := fun hx => (List.nodup_append.1 h.apart).2.2 it hx it hi rfl
  refine ⟨_, mp_wr h1 h2 _, ⟨h.ptrs, h.once, h.live, h.old, ?_, h.apart, h.all, ?_, h.cur, h.n, h.max, h.untracked, h.count, h.int⟩⟩
  · exact linked_congr h.free fun q hq => if_neg fun (e : q = it) => hnf (e ▸ hq)
  · intro q hq w hw
    dsimp only at hw ⊢
    by_cases he : q = it
    · rw [if_pos he] at hw ⊢; rw [Option.some.inj hw]
    · rw [if_neg he] at hw ⊢; exact h.kept q hq w hw

theorem mp_read (h : Holds per p s bl fl) {it : Item} (hi : it ∈ s.used) {v : Nat} (hv : s.mem it = some v) : Pool.read per it p = .ok v p := by
  obtain ⟨h1, h2⟩ := mp_used h hi
  unfold Pool.read
  rw [M.bind_ok (mp_rd h1 h2), h.kept it hi v hv]
  rfl

theorem mp_setTracked (h : Holds per p s bl fl) (hm : may s .setTracked) : ∃ p', SetTracked p = .ok () p' ∧ Holds per p' { s with tracked := s.tracked + 1 } bl fl := by
  have hun := h.untracked
  have hit := h.int
  have hm : (s.tracked : Int) ≤ INT_MAX := hm
  unfold SetTracked
  rw [M.get_bind_run, mp_i32 (by unfold INT_MAX at *; omega) (by omega), M.modify_run]
  exact ⟨_, rfl, ⟨h.ptrs, h.once, h.live, h.old, h.free, h.apart, h.all, h.kept, h.cur, h.n, h.max, by dsimp only; rw [hun]; push_cast; omega, h.count,
    hit.1, by dsimp only; push_cast; omega⟩⟩

/-- the loop of `Clear`: blocks go from the last to the first -/
theorem mp_deleteBlocks (bl : List Nat) : ∀ (k : Nat) (p : MP), bl.length < k → Spec.Grow.Is 10 p.ptrs (bl.map some) → bl.Nodup → (∀ b, p.live b = true ↔ b ∈ bl) →
    ∃ d, deleteBlocks k p = .ok () { p with ptrs := d, live := fun _ => false } ∧ Spec.Grow.Is 10 d [] := by
  induction bl using List.reverseRecOn with
  | nil =>
    intro k p hk hp _ hl
    obtain ⟨k, rfl⟩ : ∃ j, k = j + 1 := ⟨k - 1, by simp at hk; omega⟩
    refine ⟨p.ptrs, ?_, hp⟩
    unfold deleteBlocks
    have e : onPtrs Dyn.Empty p = .ok true p := by unfold onPtrs; rw [da_empty hp]; rfl
    rw [M.bind_ok e, if_pos rfl, M.pure_run]
    have : p.live = fun _ => false := by
      funext b
      cases hb : p.live b with
      | false => rfl
      | true => exact absurd ((hl b).1 hb) List.not_mem_nil
    rw [← this]
  | append_singleton bl b ih =>
    intro k p hk hp hnd hl
    obtain ⟨k, rfl⟩ : ∃ j, k = j + 1 := ⟨k - 1, by simp at hk; omega⟩
    unfold deleteBlocks
    have e : onPtrs Dyn.Empty p = .ok false p := by unfold onPtrs; rw [da_empty hp]; simp
    rw [M.bind_ok e, if_neg (by simp)]
    obtain ⟨d, ed, hd, -⟩ := da_pop hp (v := b) (by simp)
    have e₂ : onPtrs Dyn.Pop p = .ok b { p with ptrs := d } := by unfold onPtrs; rw [ed]
    rw [M.bind_ok e₂]
    have e₃ : deleteBlock b { p with ptrs := d } = .ok () { p with ptrs := d, live := fun q => if q = b then false else p.live q } := by
      unfold deleteBlock
      dsimp only
      rw [if_neg (by rw [(hl b).2 (by simp)]; simp)]
    rw [M.bind_ok e₃]
    obtain ⟨n1, -, n3⟩ := List.nodup_append.1 hnd
    obtain ⟨d', e', h'⟩ := ih k { p with ptrs := d, live := fun q => if q = b then false else p.live q } (by simp at hk; omega) (by simpa using hd) n1 (fun q => by
      dsimp only
      by_cases hq : q = b
      · subst hq
        rw [if_pos rfl]
        exact ⟨fun h => by simp at h, fun h => absurd rfl (n3 q h q (by simp))⟩
      · rw [if_neg hq, hl]; simp [hq])
    exact ⟨d', e', h'⟩

theorem mp_clear (h : Holds per p s bl fl) (k : Nat) (hk : bl.length < k) : ∃ p', Clear k p = .ok () p' ∧ Holds per p' start [] [] ∧ p'.asked = p.asked := by
  obtain ⟨d, e, hd⟩ := mp_deleteBlocks bl k p hk h.ptrs h.once h.live
  unfold Clear
  rw [M.bind_ok e, M.modify_run]
  exact ⟨_, rfl, ⟨hd, List.nodup_nil, fun b => by simp, fun b hb => absurd hb List.not_mem_nil, .nil, List.nodup_nil, fun it => by simp [start],
    fun it hi => absurd hi List.not_mem_nil, rfl, rfl, rfl, rfl, Nat.le_refl _, by decide⟩, rfl⟩

theorem mp_destroy (h : Holds per p s bl fl) (k : Nat) (hk : bl.length < k) : ∃ p', destroy k p = .ok () p' ∧ (∀ b, p'.live b = false) ∧ ∀ b, p'.ptrs.heap b = none := by
  obtain ⟨p₁, e, h₁, -⟩ := mp_clear h k hk
  obtain ⟨d, ed, hd⟩ := da_destroy h₁.ptrs
  refine ⟨{ p₁ with ptrs := d }, ?_, fun b => ?_, hd⟩
  · unfold destroy
    rw [M.bind_ok e]
    unfold onPtrs
    rw [ed]
  · cases hb : p₁.live b with
    | false => rfl
    | true => exact absurd ((h₁.live b).1 hb) List.not_mem_nil

end Verif.Proof
