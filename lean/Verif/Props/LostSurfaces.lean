/-
C314: cells and the surfaces they refer to, in an input that was read.
-/
import Verif.Props.McnpInput
import Verif.Props.McnpSurfaces
import Verif.Proofs.Except

set_option linter.unusedSectionVars false
set_option linter.unusedSimpArgs false

namespace Props
open Py McnpInput NeutUtilities Spec.Mcnp
variable {F : Type}

theorem read_blocks {flt : Str → Option F} {path : Str} {lines cb sb db : List Str} (hb : splitBlocs lines = .ok (cb, sb, db)) {i : Input F} :
    readLines flt path lines = .ok i ↔ ∃ cells surfs tn mn mats, processCellBlock flt cb = .ok cells ∧ processSurfaceBlock sb = .ok surfs ∧
      getTallyNumbers db = .ok tn ∧ getMaterialNumbers db = .ok mn ∧ readMaterials flt db mn [] = .ok mats ∧
      i = { filePath := path, cellBlock := cb, surfaceBlock := sb, dataBlock := db, cells := cells, surfaces := surfs,
            comments := getFullLineComments lines, mode := readModeCard db, talNums := tn, matNums := mn, materials := mats,
            tallies := readTallies db tn, isVoid := isCardPresent db p!"void", isKcode := isCardPresent db p!"kcode",
            isSdef := isCardPresent db p!"sdef", isPtrac := isCardPresent db p!"ptrac" } := by
  unfold readLines
  simp only [hb, ex_ok_bind, ex_bind_ok, ex_pure, Except.ok.injEq]
  constructor
  · rintro ⟨a, ha, b, hb, c, hc, d, hd, e, he, rfl⟩; exact ⟨a, b, c, d, e, ha, hb, hc, hd, he, rfl⟩
  · rintro ⟨a, b, c, d, e, ha, hb, hc, hd, he, rfl⟩; exact ⟨a, ha, b, hb, c, hc, d, hd, e, he, rfl⟩

/-- C314 is violated: if the surface cards of an input that can be read are taken away, all of them, it can still be read, and the cells
    are the same as before; none of their surfaces exists then. -/
theorem C314_surfaces_violated {flt : Str → Option F} {path : Str} {cells surfs rest : List Str} {y : Str} (hc : ∀ l ∈ cells, ¬ Spec.Blank l)
    (hs : ∀ l ∈ surfs, ¬ Spec.Blank l) (hy : Spec.Blank y) {i : Input F} (h : readLines flt path (cells ++ [] :: (surfs ++ y :: rest)) = .ok i) :
    ∃ i', readLines flt path (cells ++ [] :: y :: rest) = .ok i' ∧ i'.cells = i.cells ∧ i'.materials = i.materials ∧ i'.tallies = i.tallies ∧
      i'.surfaces = [] := by
  have hx : Spec.Blank ([] : Str) := by simp [Spec.Blank]
  have b1 : splitBlocs (cells ++ [] :: (surfs ++ y :: rest)) = .ok (cells, [] :: surfs, y :: rest) := by
    rw [C78_blocks]; exact ⟨by simp, hc, ⟨_, surfs, rfl, hx, hs⟩, y, rest, rfl, hy⟩
  have b2 : splitBlocs (cells ++ [] :: y :: rest) = .ok (cells, [[]], y :: rest) := by
    rw [C78_blocks]; exact ⟨by simp, hc, ⟨_, [], rfl, hx, by simp⟩, y, rest, rfl, hy⟩
  obtain ⟨a, b, c, d, e, ha, -, hc, hd, he, rfl⟩ := (read_blocks b1).1 h
  exact ⟨_, (read_blocks b2).2 ⟨a, [], c, d, e, ha, rfl, hc, hd, he, rfl⟩, rfl, rfl, rfl, rfl⟩

/-- C314 (part that holds): the surfaces of an input that was read are those that have a card, so the user of the input can look. Missing: a
    notice when it is read. -/
theorem C314_lookup_partial {flt : Str → Option F} {path : Str} {cells pre rest : List Str} {x y : Str} (hc : ∀ l ∈ cells, ¬ Spec.Blank l)
    (hx : Spec.Blank x) (groups : List (Str × List Str)) (ss : List Surface) (hs : ∀ l ∈ pre ++ groups.flatMap (fun g => g.1 :: g.2), ¬ Spec.Blank l)
    (hy : Spec.Blank y) (hpre : ∀ l ∈ x :: pre, SurfNoise l) (hg : List.Forall₂ (fun g s => ∃ ws, SurfWords g.1 g.2 ws ∧ SurfOf ws s) groups ss)
    {i : Input F} (h : readLines flt path (cells ++ x :: (pre ++ groups.flatMap (fun g => g.1 :: g.2) ++ y :: rest)) = .ok i) (n : Int) :
    (∃ s, i.surfaces.get n = some s) ↔ ∃ s ∈ ss, s.number = n := by
  have b1 : splitBlocs (cells ++ x :: (pre ++ groups.flatMap (fun g => g.1 :: g.2) ++ y :: rest)) =
      .ok (cells, x :: (pre ++ groups.flatMap (fun g => g.1 :: g.2)), y :: rest) := by
    rw [C78_blocks]; exact ⟨by simp, hc, ⟨_, _, rfl, hx, hs⟩, y, rest, rfl, hy⟩
  obtain ⟨a, b, c, d, e, -, hb, -, -, -, rfl⟩ := (read_blocks b1).1 h
  obtain ⟨d, hd, -, hget⟩ := C88_surfaces_partial (x :: pre) groups ss hpre hg
  rw [List.cons_append, hb] at hd
  cases hd
  constructor
  · rintro ⟨s, hs⟩
    obtain ⟨u, v, huv, -⟩ := (hget n s).1 hs
    have : (n, s) ∈ ss.map (fun s => (s.number, s)) := by rw [huv]; simp
    obtain ⟨s', hs', he⟩ := List.mem_map.1 this
    exact ⟨s', hs', (Prod.mk.inj he).1⟩
  · rintro ⟨s, hs, rfl⟩
    have key : ∀ (l : List Surface) (s : Surface), s ∈ l → ∃ t, LastWins (l.map (fun s => (s.number, s))) s.number t := by
      intro l
      induction l using List.reverseRecOn with
      | nil => intro s hs; cases hs
      | append_singleton l z ih =>
        intro s hs
        by_cases hz : z.number = s.number
        · exact ⟨z, l.map (fun s => (s.number, s)), [], by simp [hz], by simp⟩
        · have hs' : s ∈ l := by
            rcases List.mem_append.1 hs with h | h
            · exact h
            · simp only [List.mem_singleton] at h; subst h; exact absurd rfl hz
          obtain ⟨t, u, v, huv, hv⟩ := ih s hs'
          refine ⟨t, u, v ++ [(z.number, z)], by rw [List.map_append, huv]; simp, ?_⟩
          intro q hq
          rcases List.mem_append.1 hq with hq | hq
          · exact hv q hq
          · simp only [List.mem_singleton] at hq; subst hq; exact hz
    obtain ⟨t, ht⟩ := key ss s hs
    exact ⟨t, (hget _ t).2 ht⟩

example : (readLines (fun s => pyInt s) p!"x" [p!"title", p!"1 0 -5 imp:n=1", p!"", p!"", p!"sdef"]).toOption.map
    (fun i => (i.cells.values.map (fun c => c.surfaces), i.surfaces.length)) = some ([[5]], 0) := by decide +kernel
example : (readLines (fun s => pyInt s) p!"x" [p!"title", p!"1 0 -5 imp:n=1", p!"", p!"5 so 3", p!"", p!"sdef"]).toOption.map
    (fun i => (i.cells.values.map (fun c => c.surfaces), i.surfaces.keys)) = some ([[5]], [5]) := by decide +kernel

end Props
