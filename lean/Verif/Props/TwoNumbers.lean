/-
C288 for materials and tallies: numbers used twice. Cells and surfaces are in Props/BlockOrder.
-/
import Mathlib.Data.List.Count
import Verif.Props.McnpInput2
import Verif.Props.McnpInput3
import Verif.Props.BlockOrder

namespace Props
open Py NeutUtilities McnpInput Spec.Mcnp
variable {F : Type}

private theorem alone_card {head : Str → Prop} {lines : List Str} {first : Str} {body : List Str} (h : Card head lines first body) :
    Card head (first :: body) first body := by
  obtain ⟨pre, rest, -, -, hf, hb, -⟩ := h
  exact ⟨[], [], by simp, by simp, hf, hb, by simp⟩

private theorem material_text (flt : Str → Option F) (n : Int) (lines : List Str) :
    (readMaterialLines flt n lines).map (fun m => (m.composition, m.keywords, m.numNuclides)) =
    (processMaterialLine flt (stringCleaner (join p!" " (scan (matStart n) false lines))) n).map
      (fun m => (m.composition, m.keywords, m.numNuclides)) := by
  unfold readMaterialLines
  simp only
  cases processMaterialLine flt (stringCleaner (join p!" " (scan (matStart n) false lines))) n with
  | error e => rw [ex_err_bind]
  | ok m => rw [ex_ok_bind]; rfl

/-- C288 is violated: whatever follows the first card of a material, such as another card with its number, the composition and the keywords are
    those of the first card alone, or the same exception is raised. For every input. -/
theorem C288_materials_violated (flt : Str → Option F) {n : Nat} {lines : List Str} {first : Str} {body : List Str}
    (h : Card (MatHead n) lines first body) :
    (readMaterialLines flt n lines).map (fun m => (m.composition, m.keywords, m.numNuclides)) =
    (readMaterialLines flt n (first :: body)).map (fun m => (m.composition, m.keywords, m.numNuclides)) := by
  rw [material_text, material_text, scan_card (matStart_good _) (fun _ => matStart_iff) h,
    scan_card (matStart_good _) (fun _ => matStart_iff) (alone_card h)]

/-- C288 is violated: the same for the text of a tally. -/
theorem C288_tallies_violated {n : Nat} {lines : List Str} {first : Str} {body : List Str} (h : Card (TalHead n) lines first body) :
    (readTallyLines n lines).data = (readTallyLines n (first :: body)).data := by
  show stringCleaner (join p!" " (scan (talStart n) false lines)) = stringCleaner (join p!" " (scan (talStart n) false (first :: body)))
  rw [scan_card (talStart_good _) (fun _ => talStart_iff) h, scan_card (talStart_good _) (fun _ => talStart_iff) (alone_card h)]

/-- C288 (part that holds): the lists of numbers have a number as often as there are cards with it, so a caller could notice.
    Missing: that the readers notice (`C288_materials_violated` and the other theorems). -/
theorem C288_listed_partial {lines cards : List Str} {ns : List Nat} (hc : ∃ p : Str → Bool, (∀ l, p l = true ↔ Numbered 'm' 'M' l) ∧ lines.filter p = cards)
    (h : List.Forall₂ (NumberedBy 'm' 'M' (fun c => isSpace c = true)) cards ns) {out : List Int} (ho : getMaterialNumbers lines = .ok out) (n : Nat) :
    out.count (n : Int) = ns.count n ∧ (out.Nodup ↔ ns.Nodup) := by
  rw [C91_material_numbers lines cards ns hc h] at ho
  cases ho
  have inj : Function.Injective (fun (n : Nat) => (n : Int)) := fun a b hab => by simpa using hab
  exact ⟨List.count_map_of_injective ns _ inj n, List.nodup_map_iff inj⟩

/-- C288: the same for tallies. -/
theorem C288_tallies_listed_partial {lines cards : List Str} {ns : List Nat}
    (hc : ∃ p : Str → Bool, (∀ l, p l = true ↔ Numbered 'f' 'F' l) ∧ lines.filter p = cards)
    (h : List.Forall₂ (NumberedBy 'f' 'F' (fun c => isSpace c = true ∨ c = ':')) cards ns) {out : List Int} (ho : getTallyNumbers lines = .ok out)
    (n : Nat) : out.count (n : Int) = ns.count n ∧ (out.Nodup ↔ ns.Nodup) := by
  rw [C91_tally_numbers lines cards ns hc h] at ho
  cases ho
  have inj : Function.Injective (fun (n : Nat) => (n : Int)) := fun a b hab => by simpa using hab
  exact ⟨List.count_map_of_injective ns _ inj n, List.nodup_map_iff inj⟩

example : Card (MatHead 1) [p!"m1 1001 1", p!"m2 8016 1", p!"m1 6012 1"] p!"m1 1001 1" [] :=
  ⟨[], [p!"m2 8016 1", p!"m1 6012 1"], rfl, by simp, ⟨'m', p!" 1001 1", by decide, .inl rfl, .inr rfl⟩, by simp, by
    intro l hl
    simp only [List.head?_cons, Option.mem_def, Option.some.injEq] at hl
    subst hl
    rintro (⟨-, h, -⟩ | ⟨c, hc, h⟩ | h) <;> simp_all⟩

example : (processCellBlock (fun s => pyInt s) [p!"1 0 -1 imp:n=1", p!"1 0 2 imp:n=0"]).map (fun d => d.get 1 |>.map (·.surfaces)) = .ok (some [2]) := by
  decide +kernel

end Props
