/-
C313: nuclides that are listed more than once on a material card.
-/
import Verif.Props.McnpInput2
import Mathlib.Algebra.Field.Basic
import Mathlib.Data.Rat.Defs

set_option linter.unusedSectionVars false
set_option linter.unusedSimpArgs false

namespace Props
open Py NeutUtilities McnpInput Spec.Mcnp
variable {K : Type} [Field K]

/-- The fraction of a nuclide in the list of a material card: the sum of all fractions given for it. -/
def fractionOf (es : List (Str × Str × K)) (z : Str) : K := ((es.filter (fun e => e.1 = z)).map (fun e => e.2.2)).sum

/-- C313 is violated: of a nuclide that is listed again only the last fraction is kept, so its fraction is wrong unless the earlier ones
    add up to 0. -/
theorem C313_twice_violated (flt : Str → Option K) (n : Nat) (lines : List Str) (first : Str) (body : List Str)
    (f : Str → List Str) (hf : ∀ s, Spec.IsWords s (f s)) (h : Card (MatHead n) lines first body)
    (hk : ∀ w ∈ cardWords f first body, '=' ∈ w → w.takeWhile (· ≠ '=') ∈ keywordNames)
    (a b : List (Str × Str × K)) (z w : Str) (x : K) (hes : ∀ e ∈ a ++ (z, w, x) :: b, flt e.2.1 = some e.2.2)
    (hw : (cardWords f first body).filter (fun w => decide ('=' ∉ w)) = (a ++ (z, w, x) :: b).flatMap (fun e => [e.1, e.2.1]))
    (hb : ∀ e ∈ b, e.1 ≠ z) (ha : fractionOf a z ≠ 0) :
    ∃ m, readMaterialLines flt n lines = .ok m ∧ m.composition.get z = some x ∧ m.composition.get z ≠ some (fractionOf (a ++ (z, w, x) :: b) z) := by
  obtain ⟨m, h1, _, h2, _⟩ := C83_material flt n lines first body f hf h _ hes hw hk
  have hx : m.composition.get z = some x := (h2 z x).2 ⟨a.map (fun e => (e.1, e.2.2)), b.map (fun e => (e.1, e.2.2)), by simp, by
    intro q hq
    obtain ⟨e, he, rfl⟩ := List.mem_map.1 hq
    exact hb e he⟩
  refine ⟨m, h1, hx, ?_⟩
  rw [hx]
  intro he
  have hb' : b.filter (fun e => decide (e.1 = z)) = [] := by
    rw [List.filter_eq_nil_iff]; intro e he; simpa using hb e he
  have : x = fractionOf a z + x := by
    have := Option.some.inj he
    unfold fractionOf at this ⊢
    simpa [hb'] using this
  exact ha (by simpa using this)

/-- C313 (part that holds): if no nuclide is listed twice, each has its fraction. Missing: nuclides listed again. -/
theorem C313_once_partial (flt : Str → Option K) (n : Nat) (lines : List Str) (first : Str) (body : List Str)
    (f : Str → List Str) (hf : ∀ s, Spec.IsWords s (f s)) (h : Card (MatHead n) lines first body)
    (hk : ∀ w ∈ cardWords f first body, '=' ∈ w → w.takeWhile (· ≠ '=') ∈ keywordNames)
    (es : List (Str × Str × K)) (hes : ∀ e ∈ es, flt e.2.1 = some e.2.2)
    (hw : (cardWords f first body).filter (fun w => decide ('=' ∉ w)) = es.flatMap (fun e => [e.1, e.2.1]))
    (hnd : (es.map (·.1)).Nodup) :
    ∃ m, readMaterialLines flt n lines = .ok m ∧ m.numNuclides = es.length ∧ ∀ e ∈ es, m.composition.get e.1 = some (fractionOf es e.1) := by
  obtain ⟨m, h1, _, h2, _, h3, _⟩ := C83_material flt n lines first body f hf h es hes hw hk
  refine ⟨m, h1, by rw [h3, hnd.dedup, List.length_map], fun e he => ?_⟩
  obtain ⟨a, b, rfl⟩ := List.append_of_mem he
  rw [List.map_append, List.map_cons, List.nodup_append] at hnd
  obtain ⟨_, hnb, hdis⟩ := hnd
  have hb : ∀ q ∈ b, q.1 ≠ e.1 := fun q hq hqe => (List.nodup_cons.1 hnb).1 (hqe ▸ List.mem_map_of_mem hq)
  have ha : ∀ q ∈ a, q.1 ≠ e.1 := fun q hq hqe => hdis q.1 (List.mem_map_of_mem hq) e.1 (by simp) hqe
  have ha' : a.filter (fun q => decide (q.1 = e.1)) = [] := by
    rw [List.filter_eq_nil_iff]; intro q hq; simpa using ha q hq
  have hb' : b.filter (fun q => decide (q.1 = e.1)) = [] := by
    rw [List.filter_eq_nil_iff]; intro q hq; simpa using hb q hq
  have : fractionOf (a ++ e :: b) e.1 = e.2.2 := by
    unfold fractionOf
    simp [ha', hb']
  rw [this]
  exact (h2 e.1 e.2.2).2 ⟨a.map (fun e => (e.1, e.2.2)), b.map (fun e => (e.1, e.2.2)), by simp, by
    intro q hq
    obtain ⟨e', he', rfl⟩ := List.mem_map.1 hq
    exact hb e' he'⟩

private def ratOf (s : Str) : Option ℚ := (pyInt s).map (fun n => (n : ℚ))

example : ((readMaterialLines ratOf 1 [p!"m1 1001 2 8016 1 1001 5"]).map (fun m => m.composition)) = .ok [(p!"1001", 5), (p!"8016", 1)] := by
  decide +kernel
example : fractionOf [(p!"1001", p!"2", (2 : ℚ)), (p!"8016", p!"1", 1), (p!"1001", p!"5", 5)] p!"1001" = 7 := by decide +kernel

end Props
