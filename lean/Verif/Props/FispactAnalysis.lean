/- Properties C43-C50 and C129-C131 of fispact_analysis.py. -/
import Verif.Model.FispactAnalysis
import Verif.Props.NeutUtilities
import Verif.Props.Constants
import Verif.Proofs.FispactAnalysis
import Verif.Proofs.Except
import Verif.Proofs.MapM
import Mathlib.Algebra.BigOperators.Group.List.Basic
import Mathlib.Algebra.Order.BigOperators.Group.List

set_option linter.unusedSectionVars false

namespace Props
open Py FispactAnalysis NeutUtilities
variable {K : Type} [Field K] [LinearOrder K] [IsStrictOrderedRing K]

/-! ### C43 -/

/-- C43: the longest common prefixes without a zero value. -/
theorem C43_reduce {T : Type} (values : List K) (times : List T) :
    (∀ e, reduceToNonZero values times = .error e ↔ e = .ValueError ∧ values.length ≠ times.length) ∧
    ∀ v t, reduceToNonZero values times = .ok (v, t) →
      v <+: values ∧ t <+: times ∧ v.length = t.length ∧ (∀ x ∈ v, x ≠ 0) ∧
      (v = values ∨ values[v.length]? = some 0) ∧ reduceToNonZero v t = .ok (v, t) := by
  unfold reduceToNonZero
  by_cases hl : values.length = times.length
  · simp only [hl, ne_eq, not_true, if_false, and_false, iff_false]
    constructor
    · intro e; split <;> simp
    · intro v t h
      have nz : ∀ w : List K, (∀ x ∈ w, x ≠ 0) → findFirstZero w = none := fun w hw =>
        (C06_none_and_head w).2.1.2 hw
      cases hz : findFirstZero values with
      | none =>
        rw [hz] at h
        simp only [Except.ok.injEq, Prod.mk.injEq] at h
        obtain ⟨rfl, rfl⟩ := h
        refine ⟨List.prefix_refl _, List.prefix_refl _, hl, (C06_none_and_head _).2.1.1 hz, Or.inl rfl, ?_⟩
        rw [if_neg (by simpa using hl), hz]
      | some z =>
        rw [hz] at h
        simp only [Except.ok.injEq, Prod.mk.injEq] at h
        obtain ⟨rfl, rfl⟩ := h
        obtain ⟨⟨x, hx, hx0⟩, hmin⟩ := (C06_first_positions values z).2.1 hz
        have hzlt : z < values.length := (List.getElem?_eq_some_iff.1 hx).1
        have hnz : ∀ x ∈ values.take z, x ≠ 0 := by
          intro y hy h0
          obtain ⟨j, hj, rfl⟩ := List.mem_iff_getElem.1 hy
          rw [List.length_take] at hj
          refine hmin j (by omega) ⟨values[j], List.getElem?_eq_getElem (by omega), ?_⟩
          rw [List.getElem_take] at h0
          exact h0
        refine ⟨List.take_prefix _ _, List.take_prefix _ _, by simp [hl], hnz, Or.inr ?_, ?_⟩
        · rw [List.length_take, Nat.min_eq_left (by omega), hx, hx0]
        · rw [if_neg (by simp [hl]), nz _ hnz]
  · simp [hl, eq_comm]

example : reduceToNonZero ([2, 1, 0, 4] : List ℚ) [10, 20, 30, 40] = .ok ([2, 1], [10, 20]) := by decide +kernel

/-! ### C44 -/

/-- The value is a number and positive. -/
def Positive (x : Option K) : Prop := ∃ v, x = some v ∧ 0 < v

private theorem pos_iff (x : Option K) : FispactAnalysis.pos x = true ↔ Positive x := by
  unfold FispactAnalysis.pos Positive
  cases x <;> simp

/-- The four filters with the column each needs and the quantity it looks at. -/
def filters : List ((Arg K → Except Err (List (Row K))) × Str × (Row K → Option K)) :=
  [(removeStable, p!"act", (·.act)), (filterEmitsGamma, p!"g_energy", (·.gEnergy)),
   (filterEmitsBeta, p!"b_energy", (·.bEnergy)), (filterEmitsAlpha, p!"a_energy", (·.aEnergy))]

private theorem filters_eq {f : Arg K → Except Err (List (Row K))} {c : Str} {g : Row K → Option K}
    (h : (f, c, g) ∈ filters) : f = filterBy c g := by
  simp only [filters, List.mem_cons, Prod.mk.injEq, List.not_mem_nil, or_false] at h
  rcases h with ⟨rfl, rfl, rfl⟩ | ⟨rfl, rfl, rfl⟩ | ⟨rfl, rfl, rfl⟩ | ⟨rfl, rfl, rfl⟩ <;> rfl

open Classical in
/-- C44: each filter keeps, in order, exactly the rows with a positive value; anything else is refused. -/
theorem C44_filters (f : Arg K → Except Err (List (Row K))) (col : Str) (get : Row K → Option K)
    (h : (f, col, get) ∈ filters) (cols : List Str) (rows : List (Row K)) :
    (col ∈ cols → f (.frame cols rows) = .ok (rows.filter (fun r => decide (Positive (get r))))) ∧
    (col ∉ cols → f (.frame cols rows) = .error .ValueError) ∧ f .other = .error .ValueError := by
  rw [filters_eq h]
  refine ⟨?_, ?_, rfl⟩
  · intro hc
    simp only [filterBy, hc, not_true, if_false, Except.ok.injEq]
    apply List.filter_congr
    intro r _
    rw [Bool.eq_iff_iff, pos_iff, decide_eq_true_eq]
  · intro hc; simp [filterBy, hc]

/-- C44: any two filters commute and each is idempotent. -/
theorem C44_algebra (f f' : Arg K → Except Err (List (Row K))) (col col' : Str) (get get' : Row K → Option K)
    (h : (f, col, get) ∈ filters) (h' : (f', col', get') ∈ filters) (cols : List Str) (rows : List (Row K))
    (hc : col ∈ cols) (hc' : col' ∈ cols) :
    ∃ a b c, f (.frame cols rows) = .ok a ∧ f' (.frame cols rows) = .ok b ∧
      f' (.frame cols a) = .ok c ∧ f (.frame cols b) = .ok c ∧ f (.frame cols a) = .ok a := by
  rw [filters_eq h, filters_eq h']
  simp only [filterBy, hc, hc', not_true, if_false, Except.ok.injEq]
  refine ⟨_, _, _, rfl, rfl, rfl, ?_, ?_⟩
  · rw [List.filter_comm]
  · simp [List.filter_filter]

/-- C44: presence of a nuclide, and filtering never adds one. -/
theorem C44_presence (cols : List Str) (rows : List (Row K)) (nuc : Str) (hc : p!"nuclide" ∈ cols) :
    isNucPresent (.frame cols rows) nuc = .ok (decide (∃ r ∈ rows, r.nuclide = nuc)) ∧
    ∀ f col get, (f, col, get) ∈ filters → ∀ out, f (.frame cols rows) = .ok out →
      isNucPresent (.frame cols out) nuc = .ok true → isNucPresent (.frame cols rows) nuc = .ok true := by
  have key : ∀ rows : List (Row K), isNucPresent (.frame cols rows) nuc = .ok (decide (∃ r ∈ rows, r.nuclide = nuc)) := by
    intro rows
    simp [isNucPresent, hc]
  refine ⟨key rows, ?_⟩
  intro f col get hf out ho
  rw [key, key]
  simp only [Except.ok.injEq, decide_eq_true_eq]
  rintro ⟨r, hr, hn⟩
  rw [filters_eq hf] at ho
  unfold filterBy at ho
  simp only at ho
  split at ho
  · simp at ho
  · simp only [Except.ok.injEq] at ho
    rw [← ho, List.mem_filter] at hr
    exact ⟨r, hr.1, hn⟩

/-- A row for the examples. -/
def exRow (e : Str) (a : Nat) (act atoms : ℚ) : Row ℚ :=
  ⟨e, e ++ (toString a).toList, .int a, some act, none, some 0, some 1, some atoms⟩

example : ∃ a, removeStable (.frame [p!"act"] [exRow p!"H" 3 5 1, exRow p!"O" 16 0 1]) = .ok a ∧ a.length = 1 :=
  ⟨_, rfl, by decide +kernel⟩

/-! ### C45 -/

/-- C45: one row per nuclide, in order, with fraction atoms / total atoms and 1000 Z + A. -/
theorem C45_rows (fmtZ : Option Nat → Str) (fmtN : Option K → Str) (inv : List (Row K)) (lib : Str)
    (zs as : List Nat) (xs : List K)
    (hz : inv.map (fun r => Constants.zDict.get r.element) = zs.map some)
    (ha : inv.map (·.a) = as.map .int) (hx : inv.map (·.atoms) = xs.map some) (htot : xs.sum ≠ 0) :
    ∃ out, outputMcnpMat fmtZ fmtN inv lib = .ok out ∧
      out.map (·.zaid) = (List.zipWith (fun z a => 1000 * z + a) zs as).map some ∧
      out.map (·.norm) = (xs.map (fun x => x / xs.sum)).map some := by
  have htotal : (inv.filterMap (·.atoms)).sum = xs.sum := by
    have h1 : inv.filterMap (·.atoms) = (inv.map (·.atoms)).filterMap id := by
      rw [List.filterMap_map]; rfl
    rw [h1, hx, List.filterMap_map]
    simp
  have key : ∀ (inv : List (Row K)) (zs as : List Nat) (xs : List K) (tot : K), tot ≠ 0 →
      inv.map (fun r => Constants.zDict.get r.element) = zs.map some → inv.map (·.a) = as.map .int →
      inv.map (·.atoms) = xs.map some →
      ∃ out, inv.mapM (fun r => match r.a with
        | .str _ => (.error .TypeError : Except Err (MatRow K))
        | .int a =>
          .ok ⟨(Constants.zDict.get r.element).map (fun z => z * 1000 + a),
            if tot = 0 then none else r.atoms.map (fun x => x / tot),
            p!"     " ++ fmtZ ((Constants.zDict.get r.element).map (fun z => z * 1000 + a)) ++ p!"  " ++
              fmtN (if tot = 0 then none else r.atoms.map (fun x => x / tot))⟩) = .ok out ∧
        out.map (·.zaid) = (List.zipWith (fun z a => 1000 * z + a) zs as).map some ∧
        out.map (·.norm) = (xs.map (fun x => x / tot)).map some := by
    intro inv
    induction inv with
    | nil =>
      intro zs as xs tot _ hz ha hx
      have h1 : zs = [] := List.map_eq_nil_iff.1 hz.symm
      have h2 : xs = [] := List.map_eq_nil_iff.1 hx.symm
      subst h1 h2
      exact ⟨[], rfl, by simp, by simp⟩
    | cons r rs ih =>
      intro zs as xs tot ht hz ha hx
      rcases zs with _ | ⟨z, zs⟩
      · simp at hz
      rcases as with _ | ⟨a, as⟩
      · simp at ha
      rcases xs with _ | ⟨x, xs⟩
      · simp at hx
      simp only [List.map_cons, List.cons.injEq] at hz ha hx
      obtain ⟨out, ho, h1, h2⟩ := ih zs as xs tot ht hz.2 ha.2 hx.2
      rw [List.mapM_cons, ho]
      simp only [ha.1, hz.1, hx.1]
      refine ⟨_, rfl, ?_, ?_⟩
      · simp [h1, Nat.mul_comm]
      · simp [h2, ht]
  obtain ⟨out, ho, h1, h2⟩ := key inv zs as xs xs.sum htot hz ha hx
  refine ⟨out, ?_, h1, h2⟩
  unfold outputMcnpMat
  rw [htotal]
  exact ho

/-- C45: the fractions are non-negative and add up to 1. -/
theorem C45_fractions (fmtZ : Option Nat → Str) (fmtN : Option K → Str) (inv : List (Row K)) (lib : Str)
    (zs as : List Nat) (xs : List K)
    (hz : inv.map (fun r => Constants.zDict.get r.element) = zs.map some)
    (ha : inv.map (·.a) = as.map .int) (hx : inv.map (·.atoms) = xs.map some)
    (hnn : ∀ x ∈ xs, 0 ≤ x) (hne : ∃ x ∈ xs, x ≠ 0) :
    ∃ (out : List (MatRow K)) (fr : List K), outputMcnpMat fmtZ fmtN inv lib = .ok out ∧ out.map (·.norm) = fr.map some ∧
      (∀ f ∈ fr, 0 ≤ f) ∧ fr.sum = 1 := by
  have hpos : 0 < xs.sum := by
    obtain ⟨x, hx, h0⟩ := hne
    exact lt_of_lt_of_le (lt_of_le_of_ne (hnn x hx) (Ne.symm h0)) (List.single_le_sum hnn x hx)
  obtain ⟨out, h1, _, h2⟩ := C45_rows fmtZ fmtN inv lib zs as xs hz ha hx (ne_of_gt hpos)
  refine ⟨out, _, h1, h2, ?_, ?_⟩
  · intro f hf
    rw [List.mem_map] at hf
    obtain ⟨x, hx, rfl⟩ := hf
    exact div_nonneg (hnn x hx) (le_of_lt hpos)
  · have : ∀ (l : List K) (c : K), (l.map (fun x => x / c)).sum = l.sum / c := by
      intro l c
      induction l with
      | nil => simp
      | cons x xs ih => simp [ih, add_div]
    rw [this, div_self (ne_of_gt hpos)]

/-- C45: different nuclides with A < 1000 have different identifiers. -/
theorem C45_zaid_injective (z a z' a' : Nat) (ha : a < 1000) (ha' : a' < 1000)
    (h : 1000 * z + a = 1000 * z' + a') : z = z' ∧ a = a' := by omega

example : (outputMcnpMat (fun _ => []) (fun _ => []) [exRow p!"H" 1 0 2, exRow p!"O" 16 0 1] p!".70c").map
    (fun o => o.map (fun r => (r.zaid, r.norm))) =
    .ok [(some 1001, some (2 / 3)), (some 8016, some (1 / 3))] := by decide +kernel

/-! ### C129, C130 -/

/-- C129 is violated: the inventories produced by the output reader carry the mass number as text, and for these
    `output_mcnp_mat` always raises TypeError. -/
theorem C129_violated (fmtZ : Option Nat → Str) (fmtN : Option K → Str) (inv : List (Row K)) (lib : Str)
    (hne : inv ≠ []) (htxt : ∀ r ∈ inv, ∃ s, r.a = .str s) :
    outputMcnpMat fmtZ fmtN inv lib = .error .TypeError := by
  cases inv with
  | nil => exact absurd rfl hne
  | cons r rs =>
    obtain ⟨s, hs⟩ := htxt r (by simp)
    unfold outputMcnpMat
    rw [List.mapM_cons]
    simp only [hs]
    rfl

example : ∃ r : Row ℚ, r.a = .str p!"3" := ⟨⟨p!"H", p!"H3", .str p!"3", none, none, none, none, none⟩, rfl⟩

/-- C130 is violated: the requested library suffix has no effect on the result. -/
theorem C130_violated (fmtZ : Option Nat → Str) (fmtN : Option K → Str) (inv : List (Row K)) (lib lib' : Str) :
    outputMcnpMat fmtZ fmtN inv lib = outputMcnpMat fmtZ fmtN inv lib' := rfl

/-- C129: if every mass number is a number the output is made, with one row per nuclide. -/
theorem C129_integers_partial (fmtZ : Option Nat → Str) (fmtN : Option K → Str) (inv : List (Row K)) (lib : Str) :
    (∃ out, outputMcnpMat fmtZ fmtN inv lib = .ok out ∧ out.length = inv.length) ↔ ∀ r ∈ inv, ∃ a, r.a = .int a := by
  unfold outputMcnpMat
  simp only
  generalize (inv.filterMap (·.atoms)).sum = total
  induction inv with
  | nil => exact ⟨fun _ r hr => (by simp at hr), fun _ => ⟨[], rfl, rfl⟩⟩
  | cons r rs ih =>
    cases hr : r.a with
    | str s =>
      constructor
      · rintro ⟨out, h, _⟩
        rw [List.mapM_cons] at h
        simp only [hr] at h
        cases h
      · intro h
        obtain ⟨a, ha⟩ := h r (by simp)
        rw [hr] at ha
        cases ha
    | int a =>
      constructor
      · rintro ⟨out, h, hl⟩
        rw [List.mapM_cons] at h
        simp only [hr, ex_ok_bind, ex_bind_ok, ex_pure, Except.ok.injEq] at h
        obtain ⟨out', h', rfl⟩ := h
        intro r' hr'
        rcases List.mem_cons.1 hr' with rfl | hr'
        · exact ⟨a, hr⟩
        · exact ih.1 ⟨out', h', by simpa using hl⟩ r' hr'
      · intro h
        obtain ⟨out, h', hl⟩ := ih.2 (fun r' hr' => h r' (by simp [hr']))
        rw [List.mapM_cons]
        simp only [hr, ex_ok_bind, h', ex_pure]
        exact ⟨_, rfl, by rw [List.length_cons, List.length_cons, hl]⟩

/-- C130: every line consists of five blanks, the identifier, two blanks and the fraction of its row; there is no suffix. -/
theorem C130_lines_partial (fmtZ : Option Nat → Str) (fmtN : Option K → Str) (inv : List (Row K)) (lib : Str) {out : List (MatRow K)}
    (h : outputMcnpMat fmtZ fmtN inv lib = .ok out) :
    ∀ m ∈ out, m.output = p!"     " ++ fmtZ m.zaid ++ p!"  " ++ fmtN m.norm := by
  unfold outputMcnpMat at h
  simp only at h
  rw [mapM_except_ok_iff] at h
  generalize (inv.filterMap (·.atoms)).sum = total at h
  induction h with
  | nil => intro m hm; simp at hm
  | @cons r m0 rs out hr _ ih =>
    intro m hm
    rcases List.mem_cons.1 hm with rfl | hm
    · cases ha : r.a with
      | str s => rw [ha] at hr; cases hr
      | int a =>
        rw [ha] at hr
        simp only [Except.ok.injEq] at hr
        rw [← hr]
    · exact ih m hm

/-! ### C46 -/

/-- The accepted names of each column. -/
def unitNames : List (Str × List Str) :=
  [(p!"time_secs", [p!"s", p!"seconds"]), (p!"time_days", [p!"d", p!"days"]),
   (p!"time_hours", [p!"h", p!"hours", p!"hrs"]), (p!"time_years", [p!"y", p!"yrs", p!"years"])]

/-- C46: accepted names in any capitalisation give their column; all other strings are returned unchanged; idempotent. -/
theorem C46_units (t : Str) :
    (∀ col names, (col, names) ∈ unitNames → lower t ∈ names → checkTimeUnits t = col) ∧
    ((∀ col names, (col, names) ∈ unitNames → lower t ∉ names) → checkTimeUnits t = t) ∧
    checkTimeUnits (checkTimeUnits t) = checkTimeUnits t := by
  refine ⟨?_, ?_, ?_⟩
  · intro col names hm hn
    simp only [unitNames, List.mem_cons, Prod.mk.injEq, List.not_mem_nil, or_false] at hm
    rcases hm with ⟨rfl, rfl⟩ | ⟨rfl, rfl⟩ | ⟨rfl, rfl⟩ | ⟨rfl, rfl⟩ <;>
      simp only [List.mem_cons, List.not_mem_nil, or_false] at hn
    · rcases hn with h | h <;> simp [checkTimeUnits, h]
    · rcases hn with h | h <;> simp [checkTimeUnits, h]
    · rcases hn with h | h | h <;> simp [checkTimeUnits, h]
    · rcases hn with h | h | h <;> simp [checkTimeUnits, h]
  · intro h
    have h1 := h _ _ (List.mem_cons_self : _ ∈ unitNames)
    have h2 := h p!"time_days" [p!"d", p!"days"] (by simp [unitNames])
    have h3 := h p!"time_hours" [p!"h", p!"hours", p!"hrs"] (by simp [unitNames])
    have h4 := h p!"time_years" [p!"y", p!"yrs", p!"years"] (by simp [unitNames])
    simp only [List.mem_cons, List.not_mem_nil, or_false] at h1 h2 h3 h4
    simp only [checkTimeUnits, h1, h2, h3, h4, if_false]
  · have hfix : ∀ c ∈ [p!"time_secs", p!"time_days", p!"time_hours", p!"time_years"], checkTimeUnits c = c := by decide
    by_cases h : checkTimeUnits t = t
    · rw [h, h]
    · apply hfix
      unfold checkTimeUnits at h ⊢
      split_ifs at h ⊢ <;> simp_all

example : checkTimeUnits p!"HOURS" = p!"time_hours" ∧ checkTimeUnits p!"minutes" = p!"minutes" := by decide

/-! ### C47 -/

/-- `l` is the first level listed under this name. -/
def FirstLevel (oos : Limits K) (n : Str) (l : Option K) : Prop :=
  ∃ a b, oos = a ++ (n, l) :: b ∧ ∀ r ∈ a, r.1 ≠ n

/-- `l` is the level that applies to the nuclide: its own, or that of `Other` if it is not listed. -/
def Level (oos : Limits K) (n : Str) (l : Option K) : Prop :=
  FirstLevel oos n l ∨ ((∀ r ∈ oos, r.1 ≠ n) ∧ FirstLevel oos p!"Other" l)

/-- The specific activity is above the level that applies. -/
def AboveLevel (oos : Limits K) (n : Str) (act : Option K) (mass : K) : Prop :=
  ∃ l a, Level oos n (some l) ∧ act = some a ∧ l < a / mass

/-- C47: the decision. -/
theorem C47_decision (oos : Limits K) (n : Str) (act : Option K) (mass : K) (hm : mass ≠ 0) :
    ((∃ l, Level oos n l) → ∃ b, checkNuclideOos n act oos mass = .ok b ∧ (b = false ↔ AboveLevel oos n act mass)) ∧
    ((∀ r ∈ oos, r.1 ≠ n ∧ r.1 ≠ p!"Other") → checkNuclideOos n act oos mass = .error .IndexError) ∧
    ((∃ r ∈ oos, r.1 = n ∨ r.1 = p!"Other") → ∃ l, Level oos n l) := by
  refine ⟨?_, ?_, ?_⟩
  · rintro ⟨l, hl⟩
    have hcheck : checkNuclideOos n act oos mass = if gt (act.map (· / mass)) l then .ok false else .ok true := by
      unfold checkNuclideOos
      rcases hl with ⟨a, b, rfl, ha⟩ | ⟨hn, a, b, rfl, ha⟩
      · rw [filter_first n l a b ha]
        simp only [List.map_cons, hm, if_false]
      · rw [filter_none n _ hn, filter_first _ l a b ha]
        simp only [List.map_cons, List.map_nil, hm, if_false]
    have huniq : ∀ l', Level oos n l' → l' = l := by
      intro l' hl'
      have hf : ∀ m l, FirstLevel oos m l → (oos.filter (fun r => r.1 = m)).head? = some (m, l) := by
        rintro m l ⟨a, b, rfl, ha⟩
        rw [filter_first m l a b ha]; rfl
      have hnone : (∀ r ∈ oos, r.1 ≠ n) → ∀ l, ¬ FirstLevel oos n l := by
        rintro h l ⟨a, b, rfl, _⟩
        exact h (n, l) (by simp) rfl
      rcases hl with hl | ⟨hn, hl⟩ <;> rcases hl' with hl' | ⟨hn', hl'⟩
      · have := (hf n l hl).symm.trans (hf n l' hl'); simpa [eq_comm] using this
      · exact absurd hl (hnone hn' l)
      · exact absurd hl' (hnone hn l')
      · have := (hf _ l hl).symm.trans (hf _ l' hl'); simpa [eq_comm] using this
    refine ⟨!(gt (act.map (· / mass)) l), ?_, ?_⟩
    · rw [hcheck]; split <;> simp_all
    · rw [Bool.not_eq_false']
      unfold AboveLevel
      constructor
      · intro h
        cases l with
        | none => cases act <;> simp [gt] at h
        | some l =>
          cases act with
          | none => simp [gt] at h
          | some a => exact ⟨l, a, hl, rfl, by simpa [gt] using h⟩
      · rintro ⟨l', a, h1, rfl, h2⟩
        rw [← huniq _ h1]
        simpa [gt] using h2
  · intro h
    unfold checkNuclideOos
    rw [filter_none n _ (fun r hr => (h r hr).1), filter_none _ _ (fun r hr => (h r hr).2)]
    rfl
  · rintro ⟨r, hr, h⟩
    by_cases hn : ∃ r ∈ oos, r.1 = n
    · obtain ⟨l, a, b, h1, h2⟩ := exists_first hn
      exact ⟨l, Or.inl ⟨a, b, h1, h2⟩⟩
    · have hn' : ∀ r ∈ oos, r.1 ≠ n := fun r hr he => hn ⟨r, hr, he⟩
      have : ∃ r ∈ oos, r.1 = p!"Other" := ⟨r, hr, h.resolve_left (hn' r hr)⟩
      obtain ⟨l, a, b, h1, h2⟩ := exists_first this
      exact ⟨l, Or.inr ⟨hn', a, b, h1, h2⟩⟩

/-- C47: less activity or more mass never turns True into False. -/
theorem C47_monotone (oos : Limits K) (n : Str) (a a' m m' : K) (hm : 0 < m) (hmm : m ≤ m') (ha : 0 ≤ a')
    (haa : a' ≤ a) (h : checkNuclideOos n (some a) oos m = .ok true) :
    checkNuclideOos n (some a') oos m' = .ok true := by
  have hm' : 0 < m' := lt_of_lt_of_le hm hmm
  obtain ⟨h1, h2, h3⟩ := C47_decision oos n (some a) m (ne_of_gt hm)
  have hl : ∃ l, Level oos n l := by
    by_contra hn
    by_cases hex : ∃ r ∈ oos, r.1 = n ∨ r.1 = p!"Other"
    · exact hn (h3 hex)
    · rw [h2 (fun r hr => by
        constructor <;> intro he <;> exact hex ⟨r, hr, by simp [he]⟩)] at h
      simp at h
  obtain ⟨b, hb, hbi⟩ := h1 hl
  rw [hb] at h
  simp only [Except.ok.injEq] at h
  subst h
  obtain ⟨b', hb', hbi'⟩ := (C47_decision oos n (some a') m' (ne_of_gt hm')).1 hl
  cases b' with
  | true => exact hb'
  | false =>
    exfalso
    obtain ⟨l, x, hl, hx, hlt⟩ := hbi'.1 rfl
    simp only [Option.some.injEq] at hx
    subst hx
    have : a' / m' ≤ a / m := div_le_div₀ (le_trans ha haa) haa hm hmm
    exact absurd (hbi.2 ⟨l, a, hl, rfl, lt_of_lt_of_le hlt this⟩) (by simp)

example : checkNuclideOos p!"H3" (some (5000 : ℚ)) [(p!"H3", some 4), (p!"Other", some 1)] 1000 = .ok false ∧
    checkNuclideOos p!"X" (some (900 : ℚ)) [(p!"H3", some 4), (p!"Other", some 1)] 1000 = .ok true := by decide +kernel

/-! ### C48, C49 -/

/-- The row's activity is positive and its nuclide is above its level (per 1000 g, the default mass). -/
def NotOos (oos : Limits K) (r : Row K) : Prop := Positive r.act ∧ AboveLevel oos r.nuclide r.act 1000

open Classical in
/-- C48 (part that holds): with at least one active nuclide the two functions agree and say what they should.
    Missing: for an inventory without active nuclides the result depends on the version of pandas; with a version that
    returns an empty result the property holds as well (second part). -/
theorem C48_inventory_partial (onEmpty : Except Err Unit) (readOOS : Str → Except Err (Limits K)) (cols : List Str)
    (rows : List (Row K)) (path : Str) (oos : Limits K) (hr : readOOS path = .ok oos) (hc : p!"act" ∈ cols)
    (hlev : ∀ r ∈ rows, Positive r.act → ∃ l, Level oos r.nuclide l)
    (hact : (∃ r ∈ rows, Positive r.act) ∨ onEmpty = .ok ()) :
    getNotOosNuclides onEmpty readOOS (.frame cols rows) path = .ok (rows.filter (fun r => decide (NotOos oos r))) ∧
    checkInventoryOos onEmpty readOOS (.frame cols rows) path = .ok (decide (∀ r ∈ rows, ¬ NotOos oos r)) := by
  have hstab := (C44_filters removeStable p!"act" (fun r : Row K => r.act) (by simp [filters]) cols rows).1 hc
  obtain ⟨res, hres, hz, hall⟩ := apply_spec onEmpty oos (rows.filter (fun r => decide (Positive r.act)))
    (fun r => AboveLevel oos r.nuclide r.act 1000) (by
      intro r hr
      rw [List.mem_filter, decide_eq_true_eq] at hr
      exact (C47_decision oos r.nuclide r.act 1000 (by norm_num)).1 (hlev r hr.1 hr.2)) (by
      rcases hact with ⟨r, hr, hp⟩ | h
      · left
        intro hn
        rw [List.filter_eq_nil_iff] at hn
        exact hn r hr (by simpa using hp)
      · exact Or.inr h)
  constructor
  · unfold getNotOosNuclides
    simp only [hr, hstab, hres, hz, Except.ok.injEq]
    rw [List.filter_filter]
    apply List.filter_congr
    intro r _
    unfold NotOos
    rw [Bool.eq_iff_iff]
    simp [and_comm]
  · unfold checkInventoryOos
    simp only [hr, hstab, hres]
    have : (res.all id = true) ↔ ∀ r ∈ rows, ¬ NotOos oos r := by
      rw [hall]
      unfold NotOos
      simp only [List.mem_filter, decide_eq_true_eq, and_imp, not_and]
    by_cases h : ∀ r ∈ rows, ¬ NotOos oos r
    · rw [if_neg (by rw [not_not, this]; exact h), decide_eq_true h]
    · rw [if_pos (by rw [this]; exact h), decide_eq_false h]

/-- C49 (part that holds): the first step whose inventory passes with respect to the default limits file. Missing: the
    given limits file is ignored (`C49_violated`). -/
theorem C49_first_partial (onEmpty : Except Err Unit) (readOOS : Str → Except Err (Limits K)) (path : Str)
    (steps : List (Nat × Arg K)) (hok : ∀ s ∈ steps, ∃ b, checkInventoryOos onEmpty readOOS s.2 p!"data/t1.txt" = .ok b) :
    (findWhenOos onEmpty readOOS path steps = .ok none ↔
      ∀ s ∈ steps, checkInventoryOos onEmpty readOOS s.2 p!"data/t1.txt" = .ok false) ∧
    ∀ pre n inv post, steps = pre ++ (n, inv) :: post →
      (∀ s ∈ pre, checkInventoryOos onEmpty readOOS s.2 p!"data/t1.txt" = .ok false) →
      checkInventoryOos onEmpty readOOS inv p!"data/t1.txt" = .ok true →
      findWhenOos onEmpty readOOS path steps = .ok (some n) := by
  have hstep : ∀ (pre rest : List (Nat × Arg K)),
      (∀ s ∈ pre, checkInventoryOos onEmpty readOOS s.2 p!"data/t1.txt" = .ok false) →
      findWhenOos onEmpty readOOS path (pre ++ rest) = findWhenOos onEmpty readOOS path rest := by
    intro pre rest h
    induction pre with
    | nil => rfl
    | cons s pre ih =>
      rw [List.cons_append, findWhenOos]
      have := h s (by simp)
      rw [defaultOos, this]
      exact ih (fun s' h' => h s' (by simp [h']))
  constructor
  · constructor
    · intro h
      induction steps with
      | nil => simp
      | cons s rest ih =>
        rw [findWhenOos, defaultOos] at h
        obtain ⟨b, hb⟩ := hok s (by simp)
        rw [hb] at h
        cases b with
        | true => simp at h
        | false =>
          intro s' hs'
          rcases List.mem_cons.1 hs' with rfl | hs'
          · exact hb
          · exact ih (fun s hs => hok s (by simp [hs])) h s' hs'
    · intro h
      have := hstep steps [] h
      rw [List.append_nil] at this
      rw [this]; rfl
  · rintro pre n inv post rfl hpre hinv
    rw [hstep pre _ hpre, findWhenOos, defaultOos, hinv]

/-- C49 is violated: with a limits file that allows everything the only step is reported as never out of scope, because
    the default file is consulted instead. -/
theorem C49_violated : ∃ (readOOS : Str → Except Err (Limits ℚ)) (inv : Arg ℚ),
    checkInventoryOos (.ok ()) readOOS inv p!"mine.txt" = .ok true ∧
    findWhenOos (.ok ()) readOOS p!"mine.txt" [(1, inv)] = .ok none := by
  refine ⟨fun p => if p = p!"mine.txt" then .ok [(p!"Other", some 1000)] else .ok [(p!"Other", some 1)],
    .frame [p!"act"] [exRow p!"H" 3 5000 1], ?_, ?_⟩ <;> decide +kernel

/-! ### C50 -/

/-- The row shows nuclide (A, Z). -/
def Shows (num : AVal → Nat) (r : Row K) (a z : Nat) : Prop :=
  num r.a = a ∧ Constants.zDict.get r.element = some z

open Classical in
/-- C50 (part that holds): for ranges that end within A < 294 and Z < 118 every nuclide in view has its cell, the last row
    winning, and all other cells are 0. Missing: Z = 118 and A = 294 (`C50_violated`). -/
theorem C50_chart_partial (num : AVal → Nat) (get : Row K → K) (inv : List (Row K)) (arange zrange : Nat × Nat)
    (ha : arange.2 ≤ 294) (hz : zrange.2 ≤ 118) :
    ∃ d, nucChart num get inv (some arange) (some zrange) = .ok d ∧
      ∀ a z, d a z = if arange.1 ≤ a ∧ a < arange.2 ∧ zrange.1 ≤ z ∧ z < zrange.2 then
        (((inv.filter (fun r => decide (Shows num r a z))).getLast?).map get).getD 0 else 0 := by
  obtain ⟨d, hd, h⟩ := chart_spec num get inv arange zrange ha hz
  refine ⟨d, hd, ?_⟩
  intro a z
  rw [h a z]
  have : (fun r : Row K => decide (Shows num r a z)) =
      (fun r => decide (num r.a = a) && decide (Constants.zDict.get r.element = some z)) := by
    funext r
    rw [Bool.eq_iff_iff, decide_eq_true_eq]
    simp [Shows]
  rw [this]

/-- C50: the ranges used when none are given. -/
theorem C50_default_partial (num : AVal → Nat) (get : Row K → K) (inv : List (Row K)) :
    nucChart num get inv none none = nucChart num get inv (some (0, 294)) (some (0, 118)) := rfl

/-- C50 is violated: oganesson-294 is left out of the default view, and a view that includes it raises IndexError. -/
theorem C50_violated :
    let num := fun v : AVal => match v with
      | .int n => n
      | .str _ => 0
    let inv := [exRow p!"Og" 294 7 1]
    ((nucChart num (fun r => r.act.getD 0) inv none none).map (fun d => d 294 118)) = .ok 0 ∧
    ((nucChart num (fun r => r.act.getD 0) inv (some (0, 295)) (some (0, 119))).map (fun d => d 294 118)) =
      .error .IndexError := by
  decide +kernel

/-! ### C131 -/

/-- C131: the series of a nuclide has one value per time step: that of the first row of the nuclide, or 0. -/
theorem C131_series (get : Row K → K) (nuc : Str) (steps : List (List Str × List (Row K)))
    (hc : ∀ s ∈ steps, p!"nuclide" ∈ s.1) :
    ∃ vals, nucValues get nuc (steps.map (fun s => .frame s.1 s.2)) = .ok vals ∧ vals.length = steps.length ∧
      ∀ (i : Nat) (cols : List Str) (rows : List (Row K)), steps[i]? = some (cols, rows) →
        (∀ pre r post, rows = pre ++ r :: post → (∀ r' ∈ pre, r'.nuclide ≠ nuc) → r.nuclide = nuc →
          vals[i]? = some (get r)) ∧
        ((∀ r ∈ rows, r.nuclide ≠ nuc) → vals[i]? = some 0) := by
  induction steps with
  | nil => exact ⟨[], rfl, rfl, fun i cols rows h => by simp at h⟩
  | cons s steps ih =>
    obtain ⟨cols, rows⟩ := s
    obtain ⟨vals, hv, hl, hs⟩ := ih (fun s hs => hc s (by simp [hs]))
    have hpres := (C44_presence cols rows nuc (hc (cols, rows) (by simp))).1
    unfold nucValues at hv ⊢
    rw [List.map_cons, List.mapM_cons, hv]
    simp only [hpres]
    by_cases hex : ∃ r ∈ rows, r.nuclide = nuc
    · rw [decide_eq_true hex]
      obtain ⟨a, r, b, h1, h2, h3⟩ := exists_first_row hex
      have hf : rows.filter (fun r => decide (r.nuclide = nuc)) = r :: b.filter (fun r => decide (r.nuclide = nuc)) := by
        rw [h1, List.filter_append, List.filter_cons]
        simp only [h3, decide_true, if_true]
        rw [List.filter_eq_nil_iff.2 (by intro x hx; simpa using h2 x hx)]
        rfl
      simp only [hf]
      refine ⟨_, rfl, by simp [hl], ?_⟩
      intro i cols' rows' hi
      cases i with
      | succ i => simpa using hs i cols' rows' (by simpa using hi)
      | zero =>
        simp only [List.getElem?_cons_zero, Option.some.injEq, Prod.mk.injEq] at hi
        obtain ⟨rfl, rfl⟩ := hi
        refine ⟨?_, fun h => absurd hex (by push Not; exact h)⟩
        intro pre r' post hr hpre hr'
        have : rows.filter (fun r => decide (r.nuclide = nuc)) =
            r' :: post.filter (fun r => decide (r.nuclide = nuc)) := by
          rw [hr, List.filter_append, List.filter_cons]
          simp only [hr', decide_true, if_true]
          rw [List.filter_eq_nil_iff.2 (by intro x hx; simpa using hpre x hx)]
          rfl
        rw [hf] at this
        simp only [List.cons.injEq] at this
        simp [this.1]
    · rw [decide_eq_false hex]
      refine ⟨_, rfl, by simp [hl], ?_⟩
      intro i cols' rows' hi
      cases i with
      | succ i => simpa using hs i cols' rows' (by simpa using hi)
      | zero =>
        simp only [List.getElem?_cons_zero, Option.some.injEq, Prod.mk.injEq] at hi
        obtain ⟨rfl, rfl⟩ := hi
        refine ⟨?_, fun _ => by simp⟩
        intro pre r' post hr hpre hr'
        exact absurd ⟨r', by simp [hr], hr'⟩ hex

example : nucValues (fun r => r.act.getD 0) p!"H3"
    [.frame [p!"nuclide"] [exRow p!"O" 15 2 1, exRow p!"H" 3 7 1], .frame [p!"nuclide"] []] = .ok [7, 0] := by
  decide +kernel

end Props
