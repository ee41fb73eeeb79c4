/-
C312: small results of MCNP, which Fortran writes without the letter E (1.23456-101).
-/
import Verif.Props.ShortNumbers
import Verif.Props.Misc2
import Verif.Props.MeshtalReader

set_option linter.unusedSectionVars false
set_option linter.unusedSimpArgs false

namespace Props
open Py NeutUtilities Spec

section output
variable {F : Type}
open McnpOutput

/-- C312 is violated: a tally with such a result or error in one of its energy bins cannot be read. -/
theorem C312_energy_violated {flt : Str → Option F} (hflt : RejectsShort flt) (pre post : List Str) {l p a b c q : Str}
    (hl : l = p ++ (a ++ p!"   " ++ b ++ p!" " ++ c) ++ q) (hp : Blank p) (hq : Blank q) (ha : IsWord a) (hb : IsWord b) (hc : IsWord c)
    (h : ShortNumber b ∨ ShortNumber c) : ∃ e, processEnergyLines flt (pre ++ l :: post) = .error e := by
  have hw : energyLine (some : Str → Option Str) l = .ok (a, b, c) := energyRow_ok ⟨p, a, b, c, q, hl, hp, hq, ha, hb, hc, rfl, rfl, rfl⟩
  have hbad : ∃ e, energyLine flt l = .error e := by
    cases hr : energyLine flt l with
    | error e => exact ⟨e, rfl⟩
    | ok r =>
      exfalso
      unfold energyLine pyFloat at hw hr
      simp only [ex_bind_ok, orErr_ok_iff, ex_pure, Except.ok.injEq, Option.some.injEq] at hw hr
      obtain ⟨_, _, _, rfl, b', hb', _, rfl, c', hc', _, rfl, he⟩ := hw
      obtain ⟨_, _, _, _, b'', hb'', _, hfb, c'', hc'', _, hfc, _⟩ := hr
      simp only [Prod.mk.injEq] at he
      obtain ⟨-, rfl, rfl⟩ := he
      rw [hb'] at hb''
      rw [hc'] at hc''
      obtain rfl := Option.some.inj hb''
      obtain rfl := Option.some.inj hc''
      rcases h with h | h
      · rw [hflt _ h] at hfb; simp at hfb
      · rw [hflt _ h] at hfc; simp at hfc
  obtain ⟨e, he⟩ := hbad
  unfold processEnergyLines
  rw [List.mapM_append]
  cases pre.mapM (energyLine flt) with
  | error e' => exact ⟨e', rfl⟩
  | ok rs => exact ⟨e, by rw [ex_ok_bind, List.mapM_cons, he]; rfl⟩

end output

section mesh
open Meshtal
variable {K : Type} [Field K] [LinearOrder K] [IsStrictOrderedRing K] [FloorRing K]

/-- C312 is violated: a mesh tally file cannot be read if a value or an error in it is written that way, wherever it stands. -/
theorem C312_mesh_violated (flt : Str → Option K) {numeric : Str → Option (Option K)} (hnum : RejectsShort numeric) (pre : List Str)
    (secs : List Sec) (text : Str) (hf : FileOf flt pre secs text) {s : Sec} (hs : s ∈ secs) {l w : Str} (hl : l ∈ s.body) {j : Nat}
    (hj : j = 3 ∨ j = 4) (hw : (splitWs l)[(if s.kind = .c5 then 0 else 1) + j]? = some w) (hsn : ShortNumber w) :
    readMeshtallyText flt numeric none text = .error .ValueError := by
  refine read_error flt numeric pre secs (List.ne_nil_of_mem hs) text hf fun ms h => ?_
  obtain ⟨m, hm, hdata, hty⟩ : ∃ m ∈ ms, m.data = s.body.map splitWs ∧ (m.ctype = none ∨ m.ctype = some s.kind) := by
    cases secs with
    | nil => simp at hs
    | cons s0 secs =>
      cases ms with
      | nil => exact absurd h (by simp [Raws])
      | cons m0 ms =>
        obtain ⟨h0, h1⟩ := h
        rcases List.mem_cons.1 hs with rfl | hs
        · exact ⟨m0, by simp, h0.2.2.2.2.2.2.2.2.2.2.1, .inr h0.2.2.2.2.2.2.2.2.2.2.2⟩
        · obtain ⟨i, hi, rfl⟩ := List.mem_iff_getElem.1 hs
          have hi' : i < ms.length := h1.length_eq ▸ hi
          have hr := h1.get hi hi'
          simp only [List.get_eq_getElem] at hr
          refine ⟨ms[i], by simp, hr.2.2.2.2.2.2.2.2.2.2.1, ?_⟩
          rw [hr.2.2.2.2.2.2.2.2.2.2.2]
          unfold typeAfter
          cases secs[i].kind <;> simp
  refine ⟨m, hm, .ValueError, ?_⟩
  unfold convertToDf
  rcases hty with hty | hty
  · rw [hty]
  · rw [hty]
    simp only
    split
    · rfl
    · rw [mapM_except_err_of (e := .ValueError) (fun a _ e' he' => toRow_err he')]
      · rfl
      · refine ⟨splitWs l, by rw [hdata]; exact List.mem_map_of_mem hl, ?_⟩
        cases hr : toRow numeric s.kind (splitWs l) with
        | error e => exact ⟨e, rfl⟩
        | ok r =>
          exfalso
          unfold toRow at hr
          simp only [ex_bind_ok] at hr
          obtain ⟨_, _, _, _, _, _, v, hv, e, he, _⟩ := hr
          have : toNumeric numeric (some w) = .error .ValueError := by simp [toNumeric, orErr, hnum w hsn]
          rcases hj with rfl | rfl
          · rw [hw, this] at hv; cases hv
          · rw [hw, this] at he; cases he

end mesh

section output
variable {F : Type}
open McnpOutput

/-- C312 (part that holds): results that `float` reads are read, bin by bin. Missing: those in the short form. -/
theorem C312_energy_partial {flt : Str → Option F} {lines : List Str} {es : List (F × F × F)} (h : List.Forall₂ (EnergyRow flt) lines es) :
    processEnergyLines flt lines = .ok (es.map (·.1), es.map (·.2.1), es.map (·.2.2)) := C190_lines_partial h

end output

example : ShortNumber p!"1.23456-101" := ⟨p!"1.23456", p!"101", '-', by decide⟩
example : McnpOutput.processEnergyLines pyInt [p!"  10   25 1", p!"  20   7-101 3"] = .error .ValueError := by decide

end Props
