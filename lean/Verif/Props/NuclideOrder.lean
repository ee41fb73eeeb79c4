/-
C267: the order of the nuclides in an inventory. C268: selections from an inventory in any order.
-/
import Verif.Props.FispactAnalysis
import Verif.Props.FispactOutput3
import Verif.Props.CardOrder
import Verif.Model.Readers

set_option linter.unusedSectionVars false
set_option linter.unusedSimpArgs false

namespace Props
open Py FispactOutput FispactAnalysis NeutUtilities
variable {K : Type} [Field K] [LinearOrder K] [IsStrictOrderedRing K]

/-- C267: a time step whose inventory lines come in another order gives the same rows in that order. -/
theorem C267_inventory (flt : Str → Option K) {head rows rows' rest : List Str} {m : Str} (h4 : head.length = 4)
    (hm : p!"0  TOTAL NUMBER OF NUCLIDES PRINTED IN INVENTORY" <:+: m)
    (hn : ∀ l ∈ head ++ rows, ¬ p!"0  TOTAL NUMBER OF NUCLIDES PRINTED IN INVENTORY" <:+: l) (hp : rows.Perm rows')
    {inv : List (InvRow K)} (h : parseInventory flt (head ++ rows ++ m :: rest) = .ok inv) :
    ∃ inv', parseInventory flt (head ++ rows' ++ m :: rest) = .ok inv' ∧ inv.Perm inv' := by
  have first : ∀ r : List Str, (∀ l ∈ head ++ r, ¬ p!"0  TOTAL NUMBER OF NUCLIDES PRINTED IN INVENTORY" <:+: l) →
      parseInventory flt (head ++ r ++ m :: rest) = r.mapM (invRow flt) := by
    intro r hr
    have hf : findInd (head ++ r ++ m :: rest) p!"0  TOTAL NUMBER OF NUCLIDES PRINTED IN INVENTORY" = .ok (head ++ r).length := by
      rw [C05_find_ind_ok]
      refine ⟨⟨m, by simp, hm⟩, ?_⟩
      rintro j hj ⟨l, hl, hs⟩
      rw [List.getElem?_append_left hj] at hl
      exact hr l (List.mem_of_getElem? hl) hs
    unfold parseInventory
    rw [if_neg (by simp), hf]
    have : slice (head ++ r ++ m :: rest) 4 (head ++ r).length = r := by
      unfold slice
      rw [List.take_left, ← h4, List.drop_left]
    simp only [ex_ok_bind, this]
  rw [first rows hn] at h
  rw [first rows' (fun l hl => hn l (by
    rcases List.mem_append.1 hl with h | h
    · exact List.mem_append_left _ h
    · exact List.mem_append_right _ (hp.mem_iff.2 h)))]
  exact mapM_perm hp h

/-- C267: an element table in another order gives the same elements with the same fractions, in that order. -/
theorem C267_composition (flt : Str → Option K) {data data' : List Str} {s e : Nat}
    (hs : FirstWith data p!"COMPOSITION  OF  MATERIAL  BY  ELEMENT" s) (he : FirstWith data p!"GAMMA SPECTRUM AND ENERGIES/SECOND" e)
    (hs' : FirstWith data' p!"COMPOSITION  OF  MATERIAL  BY  ELEMENT" s) (he' : FirstWith data' p!"GAMMA SPECTRUM AND ENERGIES/SECOND" e)
    (h3 : 3 ≤ e) (hp : (compSection data s e).Perm (compSection data' s e)) {rows : List (CompRow K)}
    (h : parseComposition flt data = .ok rows) : ∃ rows', parseComposition flt data' = .ok rows' ∧ rows.Perm rows' := by
  rw [composition_eq flt data s e hs he h3, ex_bind_ok] at h
  obtain ⟨rs, hrs, h⟩ := h
  simp only [ex_pure, Except.ok.injEq] at h
  subst h
  obtain ⟨rs', h1, h2⟩ := mapM_perm hp hrs
  rw [composition_eq flt data' s e hs' he' h3, h1]
  refine ⟨_, rfl, ?_⟩
  rw [(h2.map (·.2)).sum_eq]
  exact h2.map _

/-- C267: the filters keep the same rows. -/
theorem C267_filters {cols : List Str} {rows rows' out : List (FispactAnalysis.Row K)} (hp : rows.Perm rows')
    {f : Arg K → Except Err (List (FispactAnalysis.Row K))} (hf : f ∈ [removeStable, filterEmitsGamma, filterEmitsBeta, filterEmitsAlpha])
    (h : f (.frame cols rows) = .ok out) : ∃ out', f (.frame cols rows') = .ok out' ∧ out.Perm out' := by
  have key : ∀ (col : Str) (get : FispactAnalysis.Row K → Option K), filterBy col get (.frame cols rows) = .ok out →
      ∃ out', filterBy col get (.frame cols rows') = .ok out' ∧ out.Perm out' := by
    intro col get h
    unfold filterBy at h ⊢
    simp only at h ⊢
    split_ifs at h ⊢ with hc
    cases h
    exact ⟨_, rfl, hp.filter _⟩
  simp only [List.mem_cons, List.not_mem_nil, or_false] at hf
  rcases hf with rfl | rfl | rfl | rfl <;> exact key _ _ h

/-- C267: the material made from the inventory has the same nuclides with the same fractions. -/
theorem C267_material (fmtZ : Option Nat → Str) (fmtN : Option K → Str) {inv inv' : List (FispactAnalysis.Row K)} (lib : Str) (hp : inv.Perm inv')
    {out : List (MatRow K)} (h : outputMcnpMat fmtZ fmtN inv lib = .ok out) :
    ∃ out', outputMcnpMat fmtZ fmtN inv' lib = .ok out' ∧ out.Perm out' := by
  unfold outputMcnpMat at h ⊢
  rw [← (hp.filterMap (·.atoms)).sum_eq]
  exact mapM_perm hp h

private theorem oos_error {oos : Limits K} {n : Str} {act : Option K} {e : Err} (h : checkNuclideOos n act oos 1000 = .error e) :
    e = .IndexError := by
  have h0 : (1000 : K) ≠ 0 := by norm_num
  unfold checkNuclideOos at h
  simp only [h0, if_false] at h
  split at h
  · rename_i e' he
    split at he
    · cases he
    · split at he
      · cases he
      · cases he; cases h; rfl
  · split_ifs at h

private theorem mapM_all {α β : Type} {f : α → Except Err β} (e : Err) (hf : ∀ a x, f a = .error x → x = e) {l l' : List α} (hp : l.Perm l') :
    (∃ r r', l.mapM f = .ok r ∧ l'.mapM f = .ok r' ∧ r.Perm r') ∨ (l.mapM f = .error e ∧ l'.mapM f = .error e) := by
  cases h : l.mapM f with
  | ok r =>
    obtain ⟨r', h1, h2⟩ := mapM_perm hp h
    exact .inl ⟨r, r', rfl, h1, h2⟩
  | error x =>
    right
    obtain ⟨a, _, ha⟩ := mapM_except_err h
    rw [hf a x ha]
    refine ⟨rfl, ?_⟩
    cases h' : l'.mapM f with
    | ok r' =>
      obtain ⟨r, h1, _⟩ := mapM_perm hp.symm h'
      rw [h] at h1; cases h1
    | error y =>
      obtain ⟨a, _, ha⟩ := mapM_except_err h'
      rw [hf a y ha]

private theorem apply_all (onEmpty : Except Err Unit) (oos : Limits K) {rows rows' : List (FispactAnalysis.Row K)} (hp : rows.Perm rows') :
    (∃ r r', applyOos onEmpty oos rows = .ok r ∧ applyOos onEmpty oos rows' = .ok r' ∧ r.Perm r') ∨
    ∃ e, applyOos onEmpty oos rows = .error e ∧ applyOos onEmpty oos rows' = .error e := by
  cases rows with
  | nil =>
    rw [List.nil_perm.1 hp]
    unfold applyOos
    cases onEmpty with
    | ok u => exact .inl ⟨[], [], rfl, rfl, .nil⟩
    | error e => exact .inr ⟨e, rfl, rfl⟩
  | cons r rows =>
    cases rows' with
    | nil => exact absurd (List.perm_nil.1 hp) (by simp)
    | cons r' rows' =>
      unfold applyOos
      rcases mapM_all (f := fun r : FispactAnalysis.Row K => checkNuclideOos r.nuclide r.act oos 1000) .IndexError (fun a x h => oos_error h) hp with h | h
      · exact .inl h
      · exact .inr ⟨_, h⟩

/-- C267: the decision whether an inventory is out of scope does not depend on the order of its rows. -/
theorem C267_oos (onEmpty : Except Err Unit) (readOOS : Str → Except Err (Limits K)) (cols : List Str) {rows rows' : List (FispactAnalysis.Row K)}
    (hp : rows.Perm rows') (path : Str) :
    checkInventoryOos onEmpty readOOS (.frame cols rows) path = checkInventoryOos onEmpty readOOS (.frame cols rows') path := by
  unfold checkInventoryOos
  cases readOOS path with
  | error e => rfl
  | ok oos =>
    simp only
    unfold removeStable filterBy
    simp only
    split_ifs with hc
    · simp only
      rcases apply_all onEmpty oos (hp.filter (fun r => pos r.act)) with ⟨r, r', h1, h2, h3⟩ | ⟨e, h1, h2⟩
      · rw [h1, h2]
        have : r.all id = r'.all id := by
          rw [Bool.eq_iff_iff, List.all_eq_true, List.all_eq_true]
          exact ⟨fun h x hx => h x (h3.mem_iff.2 hx), fun h x hx => h x (h3.mem_iff.1 hx)⟩
        simp only [this]
      · rw [h1, h2]
    · rfl

private theorem zip_filter {α : Type} {f : α → Except Err Bool} {l : List α} : ∀ {r : List Bool}, l.mapM f = .ok r →
    ((l.zip r).filter (fun p => !p.2)).map (·.1) = l.filter (fun a => match f a with | .ok b => !b | .error _ => false) := by
  induction l with
  | nil => intro r h; cases h; rfl
  | cons a l ih =>
    intro r h
    rw [mapM_except_ok_iff] at h
    cases h with
    | @cons _ b _ r h1 h2 =>
      rw [List.zip_cons_cons, List.filter_cons, List.filter_cons, h1]
      cases b <;> simp [ih (mapM_except_ok_iff.2 h2)]

/-- C267: the nuclides above their limit are the same. -/
theorem C267_notOos (onEmpty : Except Err Unit) (readOOS : Str → Except Err (Limits K)) {cols : List Str} {rows rows' : List (FispactAnalysis.Row K)}
    (hp : rows.Perm rows') {path : Str} {out : List (FispactAnalysis.Row K)}
    (h : getNotOosNuclides onEmpty readOOS (.frame cols rows) path = .ok out) :
    ∃ out', getNotOosNuclides onEmpty readOOS (.frame cols rows') path = .ok out' ∧ out.Perm out' := by
  unfold getNotOosNuclides at h ⊢
  cases hr : readOOS path with
  | error e => rw [hr] at h; cases h
  | ok oos =>
    rw [hr] at h
    simp only at h ⊢
    unfold removeStable filterBy at h ⊢
    simp only at h ⊢
    split_ifs at h ⊢ with hc
    simp only at h ⊢
    have hpf := hp.filter (fun r => pos r.act)
    rcases apply_all onEmpty oos hpf with ⟨r, r', h1, h2, h3⟩ | ⟨e, h1, h2⟩
    · rw [h1] at h
      rw [h2]
      simp only [Except.ok.injEq] at h ⊢
      refine ⟨_, rfl, ?_⟩
      subst h
      generalize rows.filter (fun r => pos r.act) = a at *
      generalize rows'.filter (fun r => pos r.act) = b at *
      cases a with
      | nil =>
        rw [List.nil_perm.1 hpf]
        exact .nil
      | cons x a =>
        cases b with
        | nil => exact absurd (List.perm_nil.1 hpf) (by simp)
        | cons y b =>
          unfold applyOos at h1 h2
          rw [zip_filter h1, zip_filter h2]
          exact hpf.filter _
    · rw [h1] at h; cases h

/-- C267: nor on the order of the limits, when each nuclide has one limit. -/
theorem C267_limits {oos oos' : Limits K} (hp : oos.Perm oos') (hn : (oos.map (·.1)).Nodup) (nuc : Str) (act : Option K) (mass : K) :
    checkNuclideOos nuc act oos mass = checkNuclideOos nuc act oos' mass := by
  have key : ∀ n : Str, oos.filter (fun r => r.1 = n) = oos'.filter (fun r => r.1 = n) := by
    intro n
    have hpf := hp.filter (fun r => decide (r.1 = n))
    have hle : (oos.filter (fun r => decide (r.1 = n))).length ≤ 1 := by
      have h1 : (oos.filter (fun r => decide (r.1 = n))).length = (oos.map (·.1)).count n := by
        rw [List.count_eq_countP, List.countP_map, List.countP_eq_length_filter]
        congr 2
        funext r
        rw [Bool.eq_iff_iff]; simp
      rw [h1]
      exact List.nodup_iff_count_le_one.1 hn n
    generalize oos.filter (fun r => decide (r.1 = n)) = a at *
    generalize oos'.filter (fun r => decide (r.1 = n)) = b at *
    rcases a with _ | ⟨x, _ | ⟨y, a⟩⟩
    · exact (List.nil_perm.1 hpf).symm
    · exact (List.singleton_perm.1 hpf).symm ▸ rfl
    · simp at hle
  unfold checkNuclideOos
  rw [key nuc, key p!"Other"]

/-- C267: the values of a nuclide over the time steps, when each nuclide is listed once in a step. -/
theorem C267_series (get : FispactAnalysis.Row K → K) (nuc : Str) {steps steps' : List (List Str × List (FispactAnalysis.Row K))}
    (h : List.Forall₂ (fun s s' => s.1 = s'.1 ∧ s.2.Perm s'.2 ∧ (s.2.map (·.nuclide)).Nodup) steps steps') :
    nucValues get nuc (steps.map (fun s => .frame s.1 s.2)) = nucValues get nuc (steps'.map (fun s => .frame s.1 s.2)) := by
  unfold nucValues
  induction h with
  | nil => rfl
  | @cons s s' steps steps' hs _ ih =>
    obtain ⟨cols, rows⟩ := s
    obtain ⟨cols', rows'⟩ := s'
    obtain ⟨rfl, hp, hn⟩ := hs
    rw [List.map_cons, List.map_cons, List.mapM_cons, List.mapM_cons, ih]
    congr 1
    have hpf := hp.filter (fun r => decide (r.nuclide = nuc))
    have hle : (rows.filter (fun r => decide (r.nuclide = nuc))).length ≤ 1 := by
      have h1 : (rows.filter (fun r => decide (r.nuclide = nuc))).length = (rows.map (·.nuclide)).count nuc := by
        rw [List.count_eq_countP, List.countP_map, List.countP_eq_length_filter]
        congr 2
        funext r
        rw [Bool.eq_iff_iff]; simp
      rw [h1]
      exact List.nodup_iff_count_le_one.1 hn nuc
    have e : rows.filter (fun r => decide (r.nuclide = nuc)) = rows'.filter (fun r => decide (r.nuclide = nuc)) := by
      generalize rows.filter (fun r => decide (r.nuclide = nuc)) = a at *
      generalize rows'.filter (fun r => decide (r.nuclide = nuc)) = b at *
      rcases a with _ | ⟨x, _ | ⟨y, a⟩⟩
      · exact (List.nil_perm.1 hpf).symm
      · exact (List.singleton_perm.1 hpf).symm ▸ rfl
      · simp at hle
    have e2 : isNucPresent (.frame cols rows) nuc = isNucPresent (.frame cols rows') nuc := by
      unfold isNucPresent
      simp only [List.mem_dedup, (hp.map (·.nuclide)).mem_iff]
    simp only [e, e2]

/-! ### C268 -/

/-- C268: two selections of an inventory can be made in either order, and a selection made again changes nothing. -/
theorem C268_commute {f g : Arg K → Except Err (List (FispactAnalysis.Row K))}
    (hf : f ∈ [removeStable, filterEmitsGamma, filterEmitsBeta, filterEmitsAlpha])
    (hg : g ∈ [removeStable, filterEmitsGamma, filterEmitsBeta, filterEmitsAlpha]) (cols : List Str) (rows : List (FispactAnalysis.Row K)) :
    (f (.frame cols rows) >>= fun a => g (.frame cols a)) = (g (.frame cols rows) >>= fun a => f (.frame cols a)) ∧
    (f (.frame cols rows) >>= fun a => f (.frame cols a)) = f (.frame cols rows) := by
  have key : ∀ (c d : Str) (p q : FispactAnalysis.Row K → Option K),
      (filterBy c p (.frame cols rows) >>= fun a => filterBy d q (.frame cols a)) =
        (filterBy d q (.frame cols rows) >>= fun a => filterBy c p (.frame cols a)) ∧
      (filterBy c p (.frame cols rows) >>= fun a => filterBy c p (.frame cols a)) = filterBy c p (.frame cols rows) := by
    intro c d p q
    unfold filterBy
    by_cases hc : c ∈ cols <;> by_cases hd : d ∈ cols <;>
      simp [hc, hd, ex_ok_bind, ex_err_bind, List.filter_filter, Bool.and_comm]
  simp only [List.mem_cons, List.not_mem_nil, or_false] at hf hg
  rcases hf with rfl | rfl | rfl | rfl <;> rcases hg with rfl | rfl | rfl | rfl <;> exact key _ _ _ _

/-- C268: the same for the emission lines of a print library, selected by energy and by particle; of two energies the larger decides. -/
theorem C268_lines (cols : List Str) (rows : List (Printlib.Row (Option K))) (e e' : K) (x y : Option K) (p : Str) :
    (Printlib.energyFilter (.frame cols rows) x >>= fun a => Printlib.particleFilter (.frame cols a) p) =
      (Printlib.particleFilter (.frame cols rows) p >>= fun a => Printlib.energyFilter (.frame cols a) x) ∧
    (Printlib.energyFilter (.frame cols rows) x >>= fun a => Printlib.energyFilter (.frame cols a) y) =
      (Printlib.energyFilter (.frame cols rows) y >>= fun a => Printlib.energyFilter (.frame cols a) x) ∧
    (Printlib.energyFilter (.frame cols rows) (some e) >>= fun a => Printlib.energyFilter (.frame cols a) (some e')) =
      Printlib.energyFilter (.frame cols rows) (some (max e e')) ∧
    (Printlib.particleFilter (.frame cols rows) p >>= fun a => Printlib.particleFilter (.frame cols a) p) =
      Printlib.particleFilter (.frame cols rows) p := by
  unfold Printlib.energyFilter Printlib.particleFilter
  refine ⟨?_, ?_, ?_, ?_⟩
  · by_cases hc : p!"energy_ev" ∈ cols <;> by_cases hd : p!"particle" ∈ cols <;>
      simp [hc, hd, ex_ok_bind, ex_err_bind, List.filter_filter, Bool.and_comm]
  · by_cases hc : p!"energy_ev" ∈ cols <;> simp [hc, ex_ok_bind, ex_err_bind, List.filter_filter, Bool.and_comm]
  · by_cases hc : p!"energy_ev" ∈ cols
    · simp only [hc, not_true_eq_false, if_false, ex_ok_bind, List.filter_filter]
      congr 1
      refine List.filter_congr (fun r _ => ?_)
      cases r.energy <;> simp [Printlib.gtNaN, Bool.and_comm]
    · simp [hc, ex_err_bind]
  · by_cases hc : p!"particle" ∈ cols <;> simp [hc, ex_ok_bind, ex_err_bind, List.filter_filter]

/-- C268: the order of the lines does not matter. -/
theorem C268_line_order {cols : List Str} {rows rows' : List (Printlib.Row (Option K))} (hp : rows.Perm rows') (x : Option K) (p : Str)
    {f : Printlib.Arg (Option K) → Except Err (List (Printlib.Row (Option K)))}
    (hf : f = (fun a => Printlib.energyFilter a x) ∨ f = (fun a => Printlib.particleFilter a p)) {out : List (Printlib.Row (Option K))}
    (h : f (.frame cols rows) = .ok out) : ∃ out', f (.frame cols rows') = .ok out' ∧ out.Perm out' := by
  rcases hf with rfl | rfl
  · unfold Printlib.energyFilter at h ⊢
    simp only at h ⊢
    split_ifs at h ⊢
    exact ⟨_, rfl, Except.ok.inj h ▸ hp.filter _⟩
  · unfold Printlib.particleFilter at h ⊢
    simp only at h ⊢
    split_ifs at h ⊢
    exact ⟨_, rfl, Except.ok.inj h ▸ hp.filter _⟩

example : (checkInventoryOos (.ok ()) (fun _ => .ok [(p!"Other", some (1 : ℚ))]) (.frame [p!"act"]
    [⟨p!"H", p!"H3", .int 3, some 2000, none, none, none, none⟩, ⟨p!"C", p!"C14", .int 14, some 5, none, none, none, none⟩]) []) = .ok false := by
  decide +kernel

end Props
