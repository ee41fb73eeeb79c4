/-
C281: the order of the nuclides in the chart of nuclides.
-/
import Verif.Props.NucChart
import Verif.Props.FispactChain

set_option linter.unusedSectionVars false

namespace Props
open Py FispactAnalysis FispactChain
open FispactOutput (InvRow)
variable {K : Type} [Field K] [LinearOrder K] [IsStrictOrderedRing K]

/-- Spec: no two rows of a table stand at the same place of the chart. -/
def OnePlace (num : AVal → Nat) (rows : List (Row K)) : Prop :=
  rows.Pairwise (fun r s => ∀ a z, ¬ (Shows num r a z ∧ Shows num s a z))

private theorem onePlace_perm {num : AVal → Nat} {rows rows' : List (Row K)} (hp : rows.Perm rows') (h : OnePlace num rows) :
    OnePlace num rows' :=
  hp.pairwise h (fun {_ _} h a z ⟨h1, h2⟩ => h a z ⟨h2, h1⟩)

private theorem cells_perm (num : AVal → Nat) (get : Row K → K) {rows rows' : List (Row K)} (hp : rows.Perm rows') (h : OnePlace num rows)
    (arange zrange : Option (Nat × Nat)) : nucChart num get rows arange zrange = nucChart num get rows' arange zrange := by
  unfold nucChart
  generalize (fun _ _ => 0 : Chart K) = d0
  induction hp generalizing d0 with
  | nil => rfl
  | cons r _ ih =>
    simp only [List.foldlM_cons]
    congr 1
    funext d
    exact ih (List.Pairwise.of_cons h) d
  | swap r s l =>
    have hrs : ∀ a z, ¬ (Shows num s a z ∧ Shows num r a z) := (List.pairwise_cons.1 h).1 r (by simp)
    simp only [List.foldlM_cons]
    cases hr : Constants.zDict.get r.element with
    | none => cases hs : Constants.zDict.get s.element <;> rfl
    | some z =>
      cases hs : Constants.zDict.get s.element with
      | none => rfl
      | some z' =>
        have hne : ¬ (num r.a = num s.a ∧ z = z') := by
          rintro ⟨h1, h2⟩
          exact hrs (num s.a) z' ⟨⟨rfl, hs⟩, ⟨h1, by rw [hr, h2]⟩⟩
        dsimp only
        split_ifs <;> try rfl
        simp only [ex_ok_bind]
        congr 1
        funext a b
        split_ifs with h1 h2 <;> try rfl
        exact absurd ⟨h1.1.symm.trans h2.1, h1.2.symm.trans h2.2⟩ hne
  | trans h1 _ ih1 ih2 => rw [ih1 h d0, ih2 (onePlace_perm h1 h) d0]

private theorem scale_perm {vs ws : List K} (hp : vs.Perm ws) : chartScale vs = chartScale ws := by
  have fmin : ∀ (l : List K) (a b : K), l.foldl min (min a b) = min a (l.foldl min b) := by
    intro l
    induction l with
    | nil => intros; rfl
    | cons x l ih => intro a b; rw [List.foldl_cons, min_assoc, ih, List.foldl_cons]
  have fmax : ∀ (l : List K) (a b : K), l.foldl max (max a b) = max a (l.foldl max b) := by
    intro l
    induction l with
    | nil => intros; rfl
    | cons x l ih => intro a b; rw [List.foldl_cons, max_assoc, ih, List.foldl_cons]
  induction hp with
  | nil => rfl
  | @cons x l₁ l₂ hp ih =>
    cases l₁ with
    | nil => rw [List.nil_perm.1 hp]
    | cons y l₁ =>
      cases l₂ with
      | nil => exact absurd hp.length_eq (by simp)
      | cons y' l₂ =>
        simp only [chartScale, Option.some.injEq, Prod.mk.injEq, add_left_inj] at ih ⊢
        simp only [List.foldl_cons, fmin, fmax, ih.1, ih.2, and_self]
  | swap x y l => simp only [chartScale, List.foldl_cons, min_comm x y, max_comm x y]
  | trans _ _ ih1 ih2 => rw [ih1, ih2]

/-- C281 (part that holds): the figure of a table whose rows all stand at different places is the same in every order of the rows: cells, colour scale,
    limits and title, or the same exception. Missing: rows at the same place (`C281_violated`). -/
theorem C281_partial (num : AVal → Nat) (get : Row K → K) (cols : List Str) {rows rows' : List (Row K)} (hp : rows.Perm rows')
    (h : OnePlace num rows) (prop : Str) (arange zrange : Option (Nat × Nat)) :
    plotNucChart num get (.frame cols rows) prop arange zrange = plotNucChart num get (.frame cols rows') prop arange zrange := by
  unfold plotNucChart
  simp only [cells_perm num get hp h arange zrange, scale_perm (hp.map get)]

/-- C281: the colour scale is the same in every order, whatever the places of the rows. -/
theorem C281_scale {num : AVal → Nat} {get : Row K → K} {cols : List Str} {rows rows' : List (Row K)} (hp : rows.Perm rows')
    {prop : Str} {arange zrange : Option (Nat × Nat)} {f f' : ChartFig K}
    (h : plotNucChart num get (.frame cols rows) prop arange zrange = .ok f)
    (h' : plotNucChart num get (.frame cols rows') prop arange zrange = .ok f') : f.scale = f'.scale := by
  have key : ∀ {rs : List (Row K)} {g : ChartFig K}, plotNucChart num get (.frame cols rs) prop arange zrange = .ok g →
      g.scale = chartScale (rs.map get) := by
    intro rs g hg
    simp only [plotNucChart] at hg
    split_ifs at hg
    obtain ⟨d, -, hd⟩ := ex_bind_ok.1 hg
    cases hd
    rfl
  rw [key h, key h', scale_perm (hp.map get)]

private theorem isomer_zero {s : Str} (h : IsIsomer s) : toNumeric (.str s) = 0 := by
  obtain ⟨m, c, -, hc, rfl⟩ := h
  simp only [toNumeric]
  rw [if_neg]
  rw [List.all_eq_true]
  intro h
  have := h c (by simp)
  rcases hc with rfl | rfl <;> revert this <;> decide

/-- C281 is violated: the isomeric states of an element all stand at A = 0, and the last row is the one that is drawn. Two orders of the same two rows
    of an inventory give two charts whenever their values differ. -/
theorem C281_violated (r s : InvRow K) (get : Row K → K) (z : Nat) (hr : IsIsomer r.a) (hs : IsIsomer s.a)
    (hzr : Constants.zDict.get r.element = some z) (hzs : Constants.zDict.get s.element = some z) (h118 : z < 118)
    (hne : get (invTableRow r) ≠ get (invTableRow s)) :
    nucChart toNumeric get ([r, s].map invTableRow) none none ≠ nucChart toNumeric get ([s, r].map invTableRow) none none := by
  have hnr : toNumeric (invTableRow r).a = 0 := isomer_zero hr
  have hns : toNumeric (invTableRow s).a = 0 := isomer_zero hs
  have hzr' : Constants.zDict.get (invTableRow r).element = some z := hzr
  have hzs' : Constants.zDict.get (invTableRow s).element = some z := hzs
  unfold nucChart
  simp only [List.map_cons, List.map_nil, List.foldlM_cons, List.foldlM_nil, hnr, hns, hzr', hzs', Option.getD_none, Nat.zero_le, h118, Nat.ofNat_pos,
    and_self, if_true, ex_ok_bind]
  intro h
  have h0 := congrFun (congrFun (Except.ok.inj h) 0) z
  simp only [and_self, if_true] at h0
  exact hne h0.symm

/-- C281 is violated in silver: 108m and 110m, in both orders. -/
example : IsIsomer p!"108m" ∧ IsIsomer p!"110m" ∧ Constants.zDict.get p!"Ag" = some 47 :=
  ⟨⟨p!"108", 'm', ⟨by decide, by decide⟩, .inl rfl, rfl⟩, ⟨p!"110", 'm', ⟨by decide, by decide⟩, .inl rfl, rfl⟩, by decide +kernel⟩
private def chartNum : AVal → Nat
  | .int n => n
  | .str _ => 0
private def twoRows : List (Row ℚ) := [exRow p!"H" 3 5 1, exRow p!"O" 16 0 1]
example : OnePlace chartNum twoRows := by
  refine List.pairwise_cons.2 ⟨?_, List.pairwise_singleton _ _⟩
  intro s hs a z
  rw [List.mem_singleton.1 hs]
  rintro ⟨⟨h1, -⟩, ⟨h2, -⟩⟩
  exact absurd (h1.trans h2.symm) (by decide)
example : ((plotNucChart chartNum (fun r => r.act.getD 0) (.frame [p!"act", p!"element", p!"A"] twoRows) p!"act" none none).map
    (fun f => (f.cells 3 1, f.scale))) = .ok (5, some (1e-8, 5)) := by decide +kernel

end Props
