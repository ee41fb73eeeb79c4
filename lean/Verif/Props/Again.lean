/-
C01, C10, C11, C180: preparing a file or a table again.
-/
import Verif.Props.Misc
import Verif.Props.Tabs
import Verif.Props.NeutUtilities

set_option linter.unusedSectionVars false

namespace Props
open Py NeutUtilities

private theorem canWrite_put {fs : FS} {p c : Str} (h : fs.canWrite p = true) : (fs.put p (.file c)).canWrite p = true := by
  unfold FS.canWrite at h ⊢
  simp only [Bool.and_eq_true, bne_iff_ne, ne_eq] at h ⊢
  obtain ⟨⟨h1, h2⟩, h3⟩ := h
  refine ⟨⟨h1, ?_⟩, by rw [put_self]; simp⟩
  unfold FS.parentOk at h2 ⊢
  split at h2
  · rfl
  · rfl
  · rename_i d _ _
    have hd : d ≠ p := by rintro rfl; exact h3 (of_decide_eq_true h2)
    rw [put_other hd]
    exact h2

private theorem put_put {fs : FS} {p : Str} {n m : Node} : (fs.put p n).put p m = fs.put p m := by
  unfold FS.put
  congr 1
  funext q
  by_cases h : q = p <;> simp [h]

/-- C01: writing the same lines again changes nothing. -/
theorem C01_again (path : Str) (lines : List Str) (fs fs' : FS) (h : writeLines path lines fs = (.ok (), fs')) :
    writeLines path lines fs' = (.ok (), fs') := by
  unfold writeLines writeText at h ⊢
  split at h
  · rename_i hw
    cases h
    rw [if_pos (canWrite_put hw), put_put]
  · cases h

example : ∃ fs', writeLines p!"f" [p!"a"] (exFS []) = (.ok (), fs') := ⟨_, rfl⟩

/-- C10: a line without tabs is not changed, so tabs need not be replaced again. -/
theorem C10_again (l : Str) (n m : Int) : replaceTabWithSpace (replaceTabWithSpace l n) m = replaceTabWithSpace l n := by
  have key : ∀ t, Spec.Replaced ['\t'] (List.replicate n.toNat ' ') l t → ¬ ['\t'] <:+: t := by
    intro t h
    induction h with
    | done h => exact h
    | @hit pre rest out h _ ih =>
      have one : ∀ u : Str, ['\t'] <:+: u ↔ '\t' ∈ u := fun u => by simp [List.singleton_infix_iff]
      rw [one] at *
      simp only [List.dropLast_concat, List.mem_append, not_or, List.mem_replicate, not_and] at *
      exact ⟨⟨h, fun _ => by decide⟩, ih⟩
  unfold replaceTabWithSpace
  rw [replace_of_ne_nil (s := l) (by simp), replace_of_ne_nil (by simp)]
  exact replaceAux_absent (key _ (replaceAux_replaced (by simp) l))

/-- C11: setting up the logger again with the same choices leaves the same handlers. -/
theorem C11_again (env : LogEnv) (f : Option Str) (c l : Str) (hs : List Handler) :
    setupLogging env f c l (setupLogging env f c l hs).2 = setupLogging env f c l hs := by
  unfold setupLogging
  rfl

section
variable {K : Type} [Field K] [LinearOrder K] [IsStrictOrderedRing K]

/-- C180 (part that holds): the values of a normalised mesh are not changed by normalising it again. Missing: meshes without a value above 0
    (`C180_again_violated`). -/
theorem C180_again_partial (values r : List K) (hpos : ∃ v ∈ values, 0 < v) (h : Magic.normaliseMesh true values = .ok (r.map some)) :
    Magic.normaliseMesh true r = .ok (r.map some) := by
  obtain ⟨v, hv, hv0⟩ := hpos
  obtain ⟨m, hm, hmax⟩ : ∃ m ∈ values, ∀ v ∈ values, v ≤ m := by
    clear h hv0
    induction values generalizing v with
    | nil => cases hv
    | cons a l ih =>
      cases l with
      | nil => exact ⟨a, by simp, by simp⟩
      | cons b l =>
        obtain ⟨m, h1, h2⟩ := ih b (by simp)
        rcases le_total a m with h | h
        · refine ⟨m, List.mem_cons_of_mem _ h1, fun v hv => ?_⟩
          rcases List.mem_cons.1 hv with rfl | hv
          · exact h
          · exact h2 v hv
        · refine ⟨a, by simp, fun v hv => ?_⟩
          rcases List.mem_cons.1 hv with rfl | hv
          · exact le_rfl
          · exact (h2 v hv).trans h
  have hm0 : 0 < m := hv0.trans_le (hmax v hv)
  obtain ⟨r1, h1, h2, _⟩ := C180_half_partial values m hm hmax hm0
  have e : r = values.map (fun v => v / (2 * m)) := by
    rw [h1] at h
    have := Except.ok.inj h
    rw [h2] at this
    apply List.map_injective_iff.2 (Option.some_injective K)
    rw [← this, List.map_map]
    rfl
  obtain ⟨r2, h3, h4, _⟩ := C180_half_partial r (1 / 2) (by rw [e]; exact List.mem_map.2 ⟨m, hm, by field_simp⟩) (by
    rw [e]
    intro x hx
    obtain ⟨v, hv, rfl⟩ := List.mem_map.1 hx
    rw [div_le_iff₀ (by linarith)]
    have := hmax v hv
    linarith) (by norm_num)
  rw [h3, h4]
  simp

example : Magic.normaliseMesh true [(1 : ℚ), 2] = .ok ([1 / 4, 1 / 2].map some) := by norm_num [Magic.normaliseMesh]

/-- C180 fails: values that are all negative change their sign and then are not the same again. -/
theorem C180_again_violated : Magic.normaliseMesh true [(-1 : ℚ), -2] = .ok [some (1 / 2), some 1] ∧
    Magic.normaliseMesh true [(1 / 2 : ℚ), 1] = .ok [some (1 / 4), some (1 / 2)] := by
  constructor <;> norm_num [Magic.normaliseMesh]

end

end Props
