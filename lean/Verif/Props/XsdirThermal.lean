/- Property C137: the thermal scattering table of an xsdir file (xsdir_reader.py). -/
import Verif.Proofs.Readers

set_option linter.unusedSectionVars false
set_option linter.unusedSimpArgs false

namespace Props
open Py NeutUtilities Xsdir
variable {F : Type}

/-- A line that starts the thermal section. -/
def ThermalHead (l : Str) : Prop := p!"thermal_scattering_data" <+: strip l ∨ p!"sab" <+: strip l

/-- A line of the thermal section with an entry: no header, no comment, first word `k`, other words `v` (at least one). -/
def ThermalEntry (l k : Str) (v : List Str) : Prop :=
  ¬ ThermalHead l ∧ ¬ p!"#" <+: strip l ∧ v ≠ [] ∧ Spec.IsWords l (k :: v)

private def thermalEntry (l : Str) : Option (Str × List Str) :=
  if startsWith (strip l) p!"thermal_scattering_data" || startsWith (strip l) p!"sab" || startsWith (strip l) p!"#" then none
  else match splitWs l with
    | k :: v :: vs => some (k, v :: vs)
    | _ => none

private theorem head_iff (l : Str) :
    (startsWith (strip l) p!"thermal_scattering_data" || startsWith (strip l) p!"sab") = true ↔ ThermalHead l := by
  rw [Bool.or_eq_true, startsWith_iff, startsWith_iff]; rfl

private theorem thermalEntry_iff (l k : Str) (v : List Str) : thermalEntry l = some (k, v) ↔ ThermalEntry l k v := by
  unfold thermalEntry ThermalEntry
  rw [isWords_iff, ← head_iff, ← startsWith_iff]
  by_cases h : (startsWith (strip l) p!"thermal_scattering_data" || startsWith (strip l) p!"sab") = true
  · simp [h]
  · by_cases h2 : startsWith (strip l) p!"#" = true
    · simp [h2]
    · rw [Bool.not_eq_true] at h h2
      rw [h, h2]
      simp only [Bool.or_false, Bool.false_eq_true, if_false, not_false_eq_true, true_and]
      rcases hw : splitWs l with _ | ⟨k', _ | ⟨v', vs⟩⟩
      · simp
      · simp only [reduceCtorEq, List.cons.injEq, false_iff, not_and]
        intro h1 _ h2; exact h1 h2.symm
      · simp only [Option.some.injEq, Prod.mk.injEq, List.cons.injEq]
        constructor
        · rintro ⟨rfl, rfl⟩; simp
        · rintro ⟨_, h1, h2⟩; exact ⟨h1, h2⟩

private theorem skip_no_entry {l : Str} (h : (decide (strip l = []) || startsWith (strip l) p!"#") = true) :
    thermalEntry l = none ∧ ¬ ThermalHead l := by
  simp only [Bool.or_eq_true, decide_eq_true_eq] at h
  rcases h with h | h
  · constructor
    · have : splitWs l = [] := by rw [← splitWs_strip, h]; rfl
      unfold thermalEntry
      rw [this]
      split <;> rfl
    · rintro (h' | h') <;> rw [h] at h' <;> simp at h'
  · constructor
    · unfold thermalEntry; simp [h]
    · rw [startsWith_iff] at h
      obtain ⟨t, ht⟩ := h
      rintro (h' | h') <;> rw [← ht] at h' <;> simp at h'

private theorem thermal_true (d : Dict Str (List Str)) (ls : List Str) :
    thermalLoop true d ls = (ls.filterMap thermalEntry).foldl (fun d e => d.set e.1 e.2) d := by
  induction ls generalizing d with
  | nil => rfl
  | cons l ls ih =>
    rw [thermalLoop, List.filterMap_cons]
    by_cases h : (decide (strip l = []) || startsWith (strip l) p!"#") = true
    · rw [if_pos h, (skip_no_entry h).1, ih]
    · rw [if_neg h]
      by_cases h2 : (startsWith (strip l) p!"thermal_scattering_data" || startsWith (strip l) p!"sab") = true
      · rw [if_pos h2, ih]
        have : thermalEntry l = none := by unfold thermalEntry; rw [h2]; simp
        rw [this]
      · rw [if_neg h2, if_pos rfl, splitWs_strip]
        have h3 : startsWith (strip l) p!"#" = false := by
          simp only [Bool.or_eq_true, not_or, Bool.not_eq_true] at h; exact h.2
        rw [Bool.not_eq_true] at h2
        have he : thermalEntry l = match splitWs l with
            | k :: v :: vs => some (k, v :: vs)
            | _ => none := by
          unfold thermalEntry; rw [h2, h3]; rfl
        rw [he]
        rcases hw : splitWs l with _ | ⟨k, _ | ⟨v, vs⟩⟩ <;> simp [ih]

private theorem thermal_false (d : Dict Str (List Str)) (pre ls : List Str) (h : ∀ l ∈ pre, ¬ ThermalHead l) :
    thermalLoop false d (pre ++ ls) = thermalLoop false d ls := by
  induction pre with
  | nil => rfl
  | cons l pre ih =>
    have ih := ih (fun l' h' => h l' (by simp [h']))
    have hl := h l (by simp)
    rw [← head_iff] at hl
    rw [Bool.not_eq_true] at hl
    rw [List.cons_append, thermalLoop, hl]
    simp only [Bool.false_eq_true, if_false, ite_self]
    exact ih

/-- C137: after `read_xsdir` the thermal table maps an identifier to the other fields of the last line of the thermal section
    with that identifier. `sec` are the lines behind the first header `hl`. -/
theorem C137_thermal (flt : Str → Option F) (fs : FS) (fpath : Str) (xs : XSDir F) (pre sec : List Str) (hl : Str)
    (hok : (readXsdir flt fpath fs).1 = .ok xs) (hlines : (getLines fpath fs).1 = .ok (pre ++ hl :: sec))
    (hpre : ∀ l ∈ pre, ¬ ThermalHead l) (hhl : ThermalHead hl) :
    (∀ k v, xs.thermal.get k = some v ↔ ∃ a l b, sec = a ++ l :: b ∧ ThermalEntry l k v ∧ ∀ l' ∈ b, ∀ v', ¬ ThermalEntry l' k v') ∧
    xs.thermal.keys.Nodup := by
  obtain ⟨lines', hl', _, _, _, hd, _⟩ := readXsdir_ok hok
  rw [hlines] at hl'
  simp only [Except.ok.injEq] at hl'
  subst hl'
  have hhead := (head_iff hl).2 hhl
  have hns : (decide (strip hl = []) || startsWith (strip hl) p!"#") = false := by
    rw [Bool.eq_false_iff]; intro h; exact (skip_no_entry h).2 hhl
  have hdir : xs.thermal = (sec.filterMap thermalEntry).foldl
      (fun (d : Dict Str (List Str)) e => d.set e.1 e.2) ([] : Dict Str (List Str)) := by
    rw [hd, processThermal, thermal_false _ _ _ hpre, thermalLoop, if_neg (by rw [hns]; simp), if_pos hhead, thermal_true]
  rw [hdir]
  refine ⟨?_, Dict.nodup_keys_foldl_set _ _ (by simp [Dict.keys])⟩
  intro k v
  rw [Dict.get_foldl_filterMap]
  simp only [thermalEntry_iff, ne_eq]

/-- C137: without a header the table is empty. -/
theorem C137_no_thermal (flt : Str → Option F) (fs : FS) (fpath : Str) (xs : XSDir F) (lines : List Str)
    (hok : (readXsdir flt fpath fs).1 = .ok xs) (hlines : (getLines fpath fs).1 = .ok lines)
    (hno : ∀ l ∈ lines, ¬ ThermalHead l) : xs.thermal = [] := by
  obtain ⟨lines', hl, _, _, _, hd, _⟩ := readXsdir_ok hok
  rw [hlines] at hl
  simp only [Except.ok.injEq] at hl
  subst hl
  rw [hd, processThermal, ← List.append_nil lines, thermal_false _ _ _ hno]
  rfl

example : processThermal [p!"x y", p!"sab", p!"# c d", p!"lwtr.10t 1 2", p!"", p!"lonely", p!"poly.10t 3", p!" lwtr.10t 9"] =
    [(p!"lwtr.10t", [p!"9"]), (p!"poly.10t", [p!"3"])] := by decide
example : ThermalHead p!"  sab data" := by right; exact ⟨p!" data", by decide⟩

end Props
