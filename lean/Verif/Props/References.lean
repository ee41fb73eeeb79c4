/-
C300: cells and the materials they refer to, in an input that was read.
-/
import Verif.Props.McnpCells
import Verif.Props.McnpInput3
import Verif.Props.McnpInput4

set_option linter.unusedSectionVars false

namespace Props
open Py McnpInput
variable {F : Type}

/-- Every line that begins with m and a digit is the first line of a material card. -/
def CleanMaterials (lines : List Str) : Prop :=
  ∀ l ∈ lines, Numbered 'm' 'M' l → ∃ k, NumberedBy 'm' 'M' (fun c => isSpace c = true) l k

/-- There is a card of material `n`. -/
def HasMaterial (lines : List Str) (n : Int) : Prop :=
  ∃ l ∈ lines, Numbered 'm' 'M' l ∧ ∃ k : Nat, NumberedBy 'm' 'M' (fun c => isSpace c = true) l k ∧ n = k

private theorem forall₂_of {α β : Type} {R : α → β → Prop} : ∀ (l : List α), (∀ a ∈ l, ∃ b, R a b) → ∃ l', List.Forall₂ R l l'
  | [], _ => ⟨[], .nil⟩
  | a :: l, h => by
    obtain ⟨b, hb⟩ := h a (by simp)
    obtain ⟨l', hl⟩ := forall₂_of l (fun x hx => h x (by simp [hx]))
    exact ⟨b :: l', .cons hb hl⟩

private theorem mem_forall₂ {α β : Type} {R : α → β → Prop} {l : List α} {l' : List β} (h : List.Forall₂ R l l') :
    (∀ b ∈ l', ∃ a ∈ l, R a b) ∧ ∀ a ∈ l, ∃ b ∈ l', R a b := by
  induction h with
  | nil => simp
  | cons h _ ih =>
    refine ⟨fun b hb => ?_, fun a ha => ?_⟩
    · rcases List.mem_cons.1 hb with rfl | hb
      · exact ⟨_, by simp, h⟩
      · obtain ⟨a, ha, hr⟩ := ih.1 b hb; exact ⟨a, by simp [ha], hr⟩
    · rcases List.mem_cons.1 ha with rfl | ha
      · exact ⟨_, by simp, h⟩
      · obtain ⟨b, hb, hr⟩ := ih.2 a ha; exact ⟨b, by simp [hb], hr⟩

private theorem numberedBy_fun {l : Str} {j k : Nat} (hd : Numbered 'm' 'M' l) (hj : NumberedBy 'm' 'M' (fun c => isSpace c = true) l j)
    (hk : NumberedBy 'm' 'M' (fun c => isSpace c = true) l k) : j = k := by
  classical
  have key : ∀ n, NumberedBy 'm' 'M' (fun c => isSpace c = true) l n → getMaterialNumbers [l] = .ok [(n : Int)] := fun n hn =>
    C91_material_numbers [l] [l] [n] ⟨fun l => decide (Numbered 'm' 'M' l), by intro l; simp, by simp [hd]⟩ (.cons hn .nil)
  have := (key j hj).symm.trans (key k hk)
  simpa using this

private theorem numbers {lines : List Str} {ns : List Int} (hc : CleanMaterials lines) (h : getMaterialNumbers lines = .ok ns) (n : Int) :
    n ∈ ns ↔ HasMaterial lines n := by
  classical
  obtain ⟨ks, hks⟩ := forall₂_of (R := NumberedBy 'm' 'M' (fun c => isSpace c = true)) (lines.filter (fun l => decide (Numbered 'm' 'M' l)))
    (fun l hl => hc l (List.mem_of_mem_filter hl) (by simpa using (List.mem_filter.1 hl).2))
  have := C91_material_numbers lines _ ks ⟨_, by intro l; simp, rfl⟩ hks
  rw [h] at this
  cases this
  obtain ⟨m1, m2⟩ := mem_forall₂ hks
  constructor
  · intro hn
    obtain ⟨k, hk, rfl⟩ := List.mem_map.1 hn
    obtain ⟨l, hl, hr⟩ := m1 k hk
    obtain ⟨hl, hd⟩ := List.mem_filter.1 hl
    exact ⟨l, hl, by simpa using hd, k, hr, rfl⟩
  · rintro ⟨l, hl, hd, k, hr, rfl⟩
    obtain ⟨k', hk', hr'⟩ := m2 l (List.mem_filter.2 ⟨hl, by simpa using hd⟩)
    exact List.mem_map.2 ⟨k', hk', by rw [numberedBy_fun hd hr hr']⟩

/-- C300 (part that holds): in an input that was read, the check of a cell that is not void succeeds exactly if there is a card of its
    material. Missing: void cells (`C300_void_violated`). -/
theorem C300_material_partial {flt : Str → Option F} {path : Str} {fs fs' : FS} {i : Input F}
    (h : readMcnpInput flt path fs = (.ok i, fs')) (hc : CleanMaterials i.dataBlock) (cell : Cell F) :
    checkCellMatExists cell i.materials = true ↔ HasMaterial i.dataBlock cell.mat := by
  obtain ⟨-, -, c, -, lines, -, -, -, -, -, -, -, -, hm, hget, hall, -⟩ := C168_file h
  rw [← numbers hc hm]
  unfold checkCellMatExists getMat
  rw [Option.isSome_iff_exists]
  constructor
  · rintro ⟨m, hm⟩; exact ((hget _ _).1 hm).1
  · intro hn; obtain ⟨m, hm, -⟩ := hall _ hn; exact ⟨m, hm⟩

/-- C300 is violated by void cells, which need no material: the check fails for each of them unless there is a card m0. -/
theorem C300_void_violated {flt : Str → Option F} {path : Str} {fs fs' : FS} {i : Input F}
    (h : readMcnpInput flt path fs = (.ok i, fs')) (hc : CleanMaterials i.dataBlock) (h0 : ¬ HasMaterial i.dataBlock 0) (cell : Cell F)
    (hv : cell.mat = 0) : checkCellMatExists cell i.materials = false := by
  rw [Bool.eq_false_iff, ne_eq, C300_material_partial h hc, hv]
  exact h0

example : (readLines (fun s => pyInt s) p!"x" [p!"title", p!"1 3 2 -5 imp:n=1", p!"2 4 2 -5", p!"3 0 5", p!"", p!"5 so 3", p!"", p!"m3 1001 1"]).toOption.map
    (fun i => i.cells.values.map (fun c => checkCellMatExists c i.materials)) = some [true, false, false] := by decide +kernel
example : CleanMaterials [p!"", p!"m3 1001 1"] := by
  intro l hl hn
  simp only [List.mem_cons, List.not_mem_nil, or_false] at hl
  rcases hl with rfl | rfl
  · obtain ⟨_, _, _, h, -⟩ := hn; cases h
  · exact ⟨3, 'm', p!" 1001 1", rfl, .inl rfl, by decide⟩
example : HasMaterial [p!"", p!"m3 1001 1"] 3 :=
  ⟨p!"m3 1001 1", by simp, ⟨'m', '3', _, rfl, .inl rfl, by decide⟩, 3, ⟨'m', p!" 1001 1", rfl, .inl rfl, by decide⟩, rfl⟩

end Props
