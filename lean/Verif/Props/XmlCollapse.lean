import Verif.Proof.XmlCollapse2
/-!
# C103 — Collapsing white space
-/
namespace Verif.Props
open Spec Tec Xml Xml.InPlace

/-- C103: whatever the file contains, a document that collapses white space has the tree of one that does not, and its names and values, asked for in any
order, any number of times, are those of that tree with the texts of its elements collapsed: their words with one space between them.  Nothing
is read or written outside of the buffer. -/
theorem C103 (content : Str) (ns : List Node) (h : parse content = .ok ns) :
    ∃ b' t u, loadB content = .ok (.ok t) b' ∧ nodeAll u = collapsedAll ns ∧ mapAll (fun _ => ()) t = mapAll (fun _ => ()) u ∧
      (flatAll t).length = (flatAll u).length ∧
      ∀ ks, (∀ k ∈ ks, k < (flatAll t).length) → ∃ ps b'', asksC ((flatAll t).zip (marksAll t)) ks b' = .ok (ps, ks.map fun k => (flatAll u).getD k []) b'' := by
  have := load_run content
  rw [h] at this
  obtain ⟨b', T, m, t, rfl, hc⟩ := this
  have hz : marksAll (mapAll Prod.snd T) = marksAll T := marksAll_map _ _
  have hy : marksAll (ptrs T) = marksAll T := marksAll_map _ _
  have hm := marksAll_length T
  refine ⟨b', ptrs T, collAll (mapAll Prod.snd T), t, nodeAll_coll _, ?_, ?_, fun ks hk => ?_⟩
  · rw [shapeAll_coll, ptrs, map_map, map_map]; rfl
  · rw [flatAll_coll, hz, ptrs, (flat_map _).2, (flat_map _).2]; simp [hm]
  · have hfr := freshAll_zip _ (loadB_fresh t)
    rw [hy] at hfr ⊢
    rw [ptrs, (flat_map _).2] at hk hfr ⊢
    obtain ⟨ps, b'', e⟩ := asksC_run (xs := (flatAll T).zip (marksAll T)) ks (by rw [List.map_fst_zip (by omega)]; exact hc) (by simpa [hm] using hk)
    refine ⟨ps, b'', ?_⟩
    have e1 : ((flatAll T).zip (marksAll T)).map (fun x => (x.1.1, x.2)) = ((flatAll T).map Prod.fst).zip (marksAll T) := by
      rw [List.zip_map_left]; rfl
    have e2 : ((flatAll T).zip (marksAll T)).map (fun x => answer x.2 x.1.1 x.1.2) = flatAll (collAll (mapAll Prod.snd T)) := by
      rw [flatAll_coll, hz, (flat_map _).2, List.zipWith_map_left, zipWith_zip]
      refine List.map_congr_left fun x hx => ?_
      have hf : x.2 = true → x.1.1.flush = true := hfr (x.1.1, x.2) (by
        rw [← e1]; exact List.mem_map.2 ⟨x, hx, rfl⟩)
      unfold answer pick
      cases hx2 : x.2 with
      | false => rfl
      | true => rw [hf hx2]; rfl
    rw [e1, e2] at e
    exact e

/-- C103: what collapsing gives has no white space at its ends, no two spaces side by side and no other white space, and the same words; collapsing
again changes nothing -/
theorem C103_words (s : Str) : words (collapse s) = words s ∧ collapse (collapse s) = collapse s ∧ (∀ b ∈ collapse s, White b → b = 32) := by
  have hw := words_are s
  have h1 : words (collapse s) = words s := words_join _ hw
  refine ⟨h1, by unfold collapse at h1 ⊢; rw [h1], fun b hb hW => ?_⟩
  unfold collapse at hb
  cases e : words s with
  | nil => rw [e] at hb; simp [List.intercalate] at hb
  | cons x t =>
    rw [e] at hb hw
    rw [intercalate_flat, List.mem_append, List.mem_flatMap] at hb
    rcases hb with hb | ⟨w, hw', hb⟩
    · exact ((hw x (by simp)).2 b hb hW).elim
    · rcases List.mem_cons.1 hb with rfl | hb
      · rfl
      · exact ((hw w (by simp [hw'])).2 b hb hW).elim

/-- a file whose texts have white space of all kinds; a section keeps it -/
example : ∃ ns, parse (lit "<a x=' 1  2 '>\n  u\t\t v &#32; <b/> <![CDATA[  w  ]]></a>") = .ok ns ∧
    collapsedAll ns = [.elem (lit "a") [(lit "x", lit " 1  2 ")] [.text false (lit "u v"), .elem (lit "b") [] [], .text true (lit "  w  ")]] := by
  refine ⟨[.elem (lit "a") [(lit "x", lit " 1  2 ")] [.text false (lit "\n  u\t\t v   "), .elem (lit "b") [] [], .text true (lit "  w  ")]], by rfl, ?_⟩
  have : collapse (lit "\n  u\t\t v   ") = lit "u v" := by decide +kernel
  simp [collapsedAll, Node.collapsed, this]

end Verif.Props
