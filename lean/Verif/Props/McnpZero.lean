/- Property C99: the number 0 names no cell and no surface. -/
import Verif.Props.McnpOutput2

namespace Props
open Py McnpOutput
variable {F : Type}

private theorem no_num {name l : Str} (h : ∀ n, ¬ BlockHead name n l) : matchNum name (strip l) = none := by
  cases hm : matchNum name (strip l) with
  | none => rfl
  | some n => exact absurd ((matchNum_iff name l n).1 hm) (h n)

private theorem stay {step : EngSt F → Str → Except Err (EngSt F)} {body : List Str} (h : ∀ st l, l ∈ body → st.cur = some 0 → step st l = .ok st)
    {st : EngSt F} (hs : st.cur = some 0) : body.foldlM step st = .ok st := by
  induction body with
  | nil => rfl
  | cons l body ih =>
    rw [List.foldlM_cons, h st l (by simp) hs, ex_ok_bind]
    exact ih (fun st x hx => h st x (by simp [hx]))

/-- Lines behind the heading of a surface 0 are not read. -/
theorem C99_surface_zero (flt : Str → Option F) (front body : List Str) {hd : Str} (hh : BlockHead p!"surface" 0 hd)
    (hb : ∀ l ∈ body, ∀ n, ¬ BlockHead p!"surface" n l) :
    processEnergyBinnedSurfaceTally flt (front ++ hd :: body) = processEnergyBinnedSurfaceTally flt front := by
  unfold processEnergyBinnedSurfaceTally
  rw [List.foldlM_append, bind_assoc]
  cases front.foldlM (surfEngStep flt) ⟨none, [], []⟩ with
  | error e => rfl
  | ok st =>
    rw [ex_ok_bind, ex_ok_bind, List.foldlM_cons]
    have e : surfEngStep flt st hd = .ok { st with cur := some 0 } := by
      unfold surfEngStep
      simp only [(matchNum_iff _ hd 0).2 hh]
    rw [e, ex_ok_bind, stay (fun st l hl hs => ?_) rfl]
    · rfl
    · unfold surfEngStep
      simp only [no_num (hb l hl), hs]

/-- Lines behind the heading of a cell 0 are not read. -/
theorem C99_cell_zero (flt : Str → Option F) (front body : List Str) {hd : Str} (hh : BlockHead p!"cell" 0 hd)
    (hb : ∀ l ∈ body, ∀ n, ¬ BlockHead p!"cell" n l) :
    readEnergyBinOnlyCellTally flt (front ++ hd :: body) = readEnergyBinOnlyCellTally flt front := by
  unfold readEnergyBinOnlyCellTally
  rw [List.foldlM_append, bind_assoc]
  cases front.foldlM (cellEngStep flt) ⟨none, [], []⟩ with
  | error e => rfl
  | ok st =>
    rw [ex_ok_bind, ex_ok_bind, List.foldlM_cons]
    have e : cellEngStep flt st hd = .ok { st with cur := some 0 } := by
      unfold cellEngStep
      simp only [(matchNum_iff _ hd 0).2 hh]
    rw [e, ex_ok_bind, stay (fun st l hl hs => ?_) rfl]
    · rfl
    · unfold cellEngStep
      simp only [no_num (hb l hl), hs]

example : processEnergyBinnedSurfaceTally (fun _ => some (1 : Nat)) [p!" surface  0 ", p!"    1   10 5"] = .ok ([], []) ∧
    processEnergyBinnedSurfaceTally (fun _ => some (1 : Nat)) [p!" surface  2 ", p!"    1   10 5"] = .ok ([(2, [(1, 1, 1)])], []) := ⟨rfl, rfl⟩

end Props
