/-
C303: the cells of a material and the cells at a surface, in a block that was read.
-/
import Verif.Props.CellSyntax

set_option linter.unusedSectionVars false

namespace Props
open Py NeutUtilities McnpInput Spec.Mcnp
variable {F : Type}

private theorem geom_head (flt : Str → Option F) {geom : List Str} {cell c : Cell F} (h : processGeom flt geom cell = .ok c) :
    c.number = cell.number ∧ c.mat = cell.mat ∧ c.density = cell.density := by
  unfold processGeom at h
  obtain ⟨st, _, h⟩ := ex_bind_ok.1 h
  cases h
  exact ⟨rfl, rfl, rfl⟩

private def Kept (d : Dict Int (Cell F)) : Prop := d.keys.Nodup ∧ ∀ n c, d.get n = some c → c.number = n

private theorem finish_kept (flt : Str → Option F) {d d' : Dict Int (Cell F)} {cur : Cell F × List Str} (hd : Kept d)
    (h : finishCell flt d cur = .ok d') : Kept d' := by
  unfold finishCell at h
  obtain ⟨c, _, h⟩ := ex_bind_ok.1 h
  cases h
  refine ⟨Dict.nodup_keys_set hd.1, fun n x hx => ?_⟩
  rw [Dict.get_set] at hx
  split at hx
  · next e => cases hx; exact e.symm
  · exact hd.2 n x hx

private theorem step_kept (flt : Str → Option F) {st st' : CellSt F} {l : Str} (hd : Kept st.dict) (h : cellStep flt st l = .ok st') :
    Kept st'.dict := by
  unfold cellStep at h
  obtain ⟨c, _, h⟩ := ex_bind_ok.1 h
  by_cases hc : isDigit c = true
  · rw [if_pos hc] at h
    cases hcur : st.cur with
    | none =>
      rw [hcur] at h
      simp only [ex_pure, ex_ok_bind] at h
      obtain ⟨_, _, h⟩ := ex_bind_ok.1 h
      cases h; exact hd
    | some cur =>
      rw [hcur] at h
      obtain ⟨d, h1, h⟩ := ex_bind_ok.1 h
      obtain ⟨_, _, h⟩ := ex_bind_ok.1 h
      cases h; exact finish_kept flt hd h1
  · rw [if_neg hc] at h
    by_cases hl : isContinueLine l = true
    · rw [if_pos hl] at h
      cases hcur : st.cur with
      | none => rw [hcur] at h; cases h; exact hd
      | some cur => rw [hcur] at h; cases h; exact hd
    · rw [if_neg hl] at h; cases h; exact hd

private theorem fold_kept (flt : Str → Option F) : ∀ (ls : List Str) {st st' : CellSt F}, Kept st.dict →
    ls.foldlM (cellStep flt) st = .ok st' → Kept st'.dict
  | [], _, _, hd, h => by cases h; exact hd
  | l :: ls, _, _, hd, h => by
    rw [List.foldlM_cons] at h
    obtain ⟨st1, h1, h2⟩ := ex_bind_ok.1 h
    exact fold_kept flt ls (step_kept flt hd h1) h2

/-- C303: every cell is stored once, under its own number. -/
theorem C303_numbers (flt : Str → Option F) {bloc : List Str} {d : Dict Int (Cell F)} (h : processCellBlock flt bloc = .ok d) :
    d.keys.Nodup ∧ ∀ n c, (n, c) ∈ d ↔ c.number = n ∧ getCell n d = some c := by
  unfold processCellBlock at h
  obtain ⟨st, h1, h⟩ := ex_bind_ok.1 h
  have hk := fold_kept flt bloc (st := ⟨[], none⟩) ⟨by simp [Dict.keys], by intro n c hc; cases hc⟩ h1
  cases hcur : st.cur with
  | none => rw [hcur] at h; cases h
  | some cur =>
    rw [hcur] at h
    have := finish_kept flt hk h
    refine ⟨this.1, fun n c => ?_⟩
    rw [← (C87_get_cell d n c this.1).1]
    exact ⟨fun hg => ⟨this.2 n c hg, hg⟩, fun hg => hg.2⟩

private theorem found (flt : Str → Option F) {bloc : List Str} {d : Dict Int (Cell F)} (h : processCellBlock flt bloc = .ok d) {n : Int} {c : Cell F}
    (hg : d.get n = some c) (hn : c.number = n) {l : List (Cell F)} {P : Cell F → Prop} (hl : ∀ c, c ∈ l ↔ P c ∧ ∃ n, (n, c) ∈ d) :
    (∃ c ∈ l, c.number = n) ↔ P c := by
  obtain ⟨_, hm⟩ := C303_numbers flt h
  constructor
  · rintro ⟨x, hx, rfl⟩
    obtain ⟨hp, k, hk⟩ := (hl x).1 hx
    obtain ⟨hk1, hk2⟩ := (hm k x).1 hk
    subst hk1
    have : some x = some c := hk2.symm.trans hg
    cases this
    exact hp
  · intro hp
    exact ⟨c, (hl c).2 ⟨hp, n, (hm n c).2 ⟨hn, hg⟩⟩, hn⟩

/-- C303: a cell is among the cells of a material exactly if its card names the material. -/
theorem C303_material [DecidableEq F] (flt : Str → Option F) {pre : List Str} {line : Str} {body rest : List Str} {n m : Int} {dn : Option F}
    {geom : List Str} (hh : CellHead flt line n m dn geom) (hb : Behind n body rest) {d : Dict Int (Cell F)}
    (h : processCellBlock flt (pre ++ line :: (body ++ rest)) = .ok d) (m' : Int) :
    (∃ c ∈ cellsWithMat m' d, c.number = n) ↔ m = m' := by
  obtain ⟨c, h1, h2⟩ := the_card flt hh hb.1 hb.2.1 hb.2.2 h
  obtain ⟨hn, hm, _⟩ := geom_head flt h1
  rw [found flt h h2 hn (P := fun c => c.mat = m') (l := cellsWithMat m' d) ?_, hm]
  intro x
  unfold cellsWithMat Dict.values
  simp only [List.mem_filter, List.mem_map, beq_iff_eq]
  constructor
  · rintro ⟨⟨e, he, rfl⟩, hx⟩; exact ⟨hx, e.1, he⟩
  · rintro ⟨hx, k, hk⟩; exact ⟨⟨_, hk, rfl⟩, hx⟩

/-- C303 (part that holds): a cell is among the cells at a surface exactly if the surface is one of the numbers of its geometry. Missing:
    geometries with signs or brackets inside a word (`C303_union_violated`). -/
theorem C303_surface_partial [DecidableEq F] (flt : Str → Option F) {pre : List Str} {line : Str} {body rest : List Str} {n m : Int} {dn : Option F}
    {geom : List Str} (hh : CellHead flt line n m dn geom) (hb : Behind n body rest)
    {rs : List (List F × List (Char × F) × List Str)} (hg : GeomWords flt (geom ++ body.filter (fun l => decide (Cont l))) rs)
    {d : Dict Int (Cell F)} (h : processCellBlock flt (pre ++ line :: (body ++ rest)) = .ok d) (s : F) :
    (∃ c ∈ cellsWithSurface s d, c.number = n) ↔ ∃ r ∈ rs, s ∈ r.1 := by
  obtain ⟨c, h1, hn, _, _, hs, _⟩ := C206_cell_partial flt hh hb hg h
  rw [found flt h h1 hn ((C87_queries d 0 s).2.2.2.2.1), hs, List.mem_flatMap]

/-- C303 is violated: a cell with the geometry `1:-2` is not among the cells at surface 2. -/
theorem C303_union_violated [DecidableEq F] [InvolutiveNeg F] (flt : Str → Option F) {pre : List Str} {line : Str} {body rest : List Str} {n m : Int}
    {dn : Option F} {a b : Str} (hh : CellHead flt line n m dn [a ++ ':' :: '-' :: b]) (hb : Behind n body rest)
    (hbody : ∀ l ∈ body, ¬ Cont l) (ha : a ≠ [] ∧ ∀ c ∈ a, c.isDigit = true) (hb' : b ≠ [] ∧ ∀ c ∈ b, c.isDigit = true) {x y : F}
    (hx : flt a = some x) (hy : flt ('-' :: b) = some (-y)) (hxy : x ≠ y) (hyy : y ≠ -y)
    {d : Dict Int (Cell F)} (h : processCellBlock flt (pre ++ line :: (body ++ rest)) = .ok d) :
    (∃ c ∈ cellsWithSurface x d, c.number = n) ∧ ¬ ∃ c ∈ cellsWithSurface y d, c.number = n := by
  obtain ⟨c, h1, hs, hno⟩ := C206_union_sign_violated flt hh hb hbody ha hb' hx hy hxy hyy h
  obtain ⟨c', h1', h2'⟩ := the_card flt hh hb.1 hb.2.1 hb.2.2 h
  obtain ⟨hn, _⟩ := geom_head flt h1'
  rw [h1] at h2'
  cases h2'
  rw [found flt h h1 hn ((C87_queries d 0 x).2.2.2.2.1), found flt h h1 hn ((C87_queries d 0 y).2.2.2.2.1)]
  exact ⟨by simp [hs], hno⟩

private def exF : Str → Option Int := pyInt

/-- Two cells at surface 2; the second one is not found. -/
example : ((processCellBlock exF [p!"1 3 -8 -2 5", p!"2 0 5:-2"]).map
      fun d => ((cellsWithMat 3 d).map (·.number), (cellsWithSurface 2 d).map (·.number), (cellsWithSurface 5 d).map (·.number))) =
    .ok ([1], [1], [1, 2]) := by decide +kernel

/-- The conditions of the theorems hold for a card `1 0 5:-2`. -/
example {d : Dict Int (Cell Int)} (h : processCellBlock exF [p!"1 0 5:-2"] = .ok d) :
    (∃ c ∈ cellsWithSurface 5 d, c.number = 1) ∧ ¬ ∃ c ∈ cellsWithSurface 2 d, c.number = 1 :=
  C303_union_violated exF (pre := []) (body := []) (rest := []) (line := p!"1 0 5:-2") (m := 0) (dn := none) (a := p!"5") (b := p!"2")
    ⟨⟨_, _, rfl, by decide⟩, p!"1", p!"0", by decide +kernel, by decide +kernel, .inl ⟨rfl, rfl, isWords_iff.2 (by decide +kernel)⟩⟩
    ⟨by simp, by simp, by intro l hl; cases hl⟩ (by simp) ⟨by simp, by decide⟩ ⟨by simp, by decide⟩ (by decide +kernel) (by decide +kernel)
    (by decide) (by decide) h

example {d : Dict Int (Cell Int)} (h : processCellBlock exF [p!"1 0 5:-2"] = .ok d) : ¬ ∃ c ∈ cellsWithMat 3 d, c.number = 1 := by
  rw [C303_material exF (pre := []) (body := []) (rest := []) (line := p!"1 0 5:-2") (n := 1) (m := 0) (dn := none) (geom := [p!"5:-2"])
    ⟨⟨_, _, rfl, by decide⟩, p!"1", p!"0", by decide +kernel, by decide +kernel, .inl ⟨rfl, rfl, isWords_iff.2 (by decide +kernel)⟩⟩
    ⟨by simp, by simp, by intro l hl; cases hl⟩ h]
  decide

end Props
