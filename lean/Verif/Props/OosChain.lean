/- Property C229: the out of scope decision for the time steps read from a FISPACT output. -/
import Verif.Model.Oos
import Verif.Props.FispactChain
import Verif.Props.Oos

set_option linter.unusedSectionVars false

namespace Props
open Py FispactAnalysis FispactChain
open FispactOutput (InvRow TimeStep parseInventory readTimeStep)
variable {K : Type} [Field K] [LinearOrder K] [IsStrictOrderedRing K]

/-! ### C229 -/

/-- The nuclide in a line of an inventory: two characters, the symbol of the element padded to two, the mass number to the right of three
    columns, and the letter of the isomeric state or a blank. -/
structure PrintedNuclide where
  margin : Str
  element : Str
  mass : Str
  state : Str
  rest : Str

def PrintedNuclide.WF (p : PrintedNuclide) : Prop :=
  p.margin.length = 2 ∧ (p.element.length = 1 ∨ p.element.length = 2) ∧ p.mass.length ≤ 3 ∧ p.state.length ≤ 1 ∧
    ∀ c ∈ p.element ++ p.mass ++ p.state, c ≠ ' '

def PrintedNuclide.line (p : PrintedNuclide) : Str :=
  p.margin ++ (p.element ++ List.replicate (2 - p.element.length) ' ') ++ (List.replicate (3 - p.mass.length) ' ' ++ p.mass) ++
    (p.state ++ List.replicate (1 - p.state.length) ' ') ++ p.rest

/-- C229: the name read is the symbol, the mass number and the letter of the isomeric state, without blanks: the form of the names in the
    limits file. -/
theorem C229_name (flt : Str → Option K) (p : PrintedNuclide) (h : p.WF) (r : InvRow K) (hr : InvRowOf flt p.line r) :
    r.nuclide = p.element ++ p.mass ++ p.state := by
  obtain ⟨h1, h2, h3, h4, h5⟩ := h
  obtain ⟨-, -, -, -, -, -, -, -, -, hn⟩ := hr
  rw [hn]
  have hdrop : (p.line.drop 2).take 6 = (p.element ++ List.replicate (2 - p.element.length) ' ') ++ (List.replicate (3 - p.mass.length) ' ' ++ p.mass) ++
      (p.state ++ List.replicate (1 - p.state.length) ' ') := by
    have : p.line = p.margin ++ (((p.element ++ List.replicate (2 - p.element.length) ' ') ++ (List.replicate (3 - p.mass.length) ' ' ++ p.mass) ++
      (p.state ++ List.replicate (1 - p.state.length) ' ')) ++ p.rest) := by simp [PrintedNuclide.line]
    rw [this, List.drop_left' h1, List.take_left']
    simp only [List.length_append, List.length_replicate]
    omega
  rw [hdrop]
  have hid : ∀ s : Str, (∀ c ∈ s, c ≠ ' ') → s.filter (fun c => decide (c ≠ ' ')) = s := fun s hs =>
    List.filter_eq_self.2 (fun c hc => by simpa using hs c hc)
  have hbl : ∀ n, (List.replicate n ' ').filter (fun c => decide (c ≠ ' ')) = [] := fun n => by simp
  simp only [List.filter_append, hbl, hid p.element (fun c hc => h5 c (by simp [hc])), hid p.mass (fun c hc => h5 c (by simp [hc])),
    hid p.state (fun c hc => h5 c (by simp [hc])), List.nil_append, List.append_nil]

/-- C229: with the limits that come with the program, a nuclide in the file is judged by its own level, any other by 0.01 Bq/g. -/
theorem C229_level {flt : Str → Option K} (hf : ReadsLevels flt) {oos : Limits K} (h : parseOos flt t1Text = .ok oos) (n : Str) (l : Option K)
    (hl : Level oos n l) :
    (∀ t, (n, t) ∈ t1Rows → l = flt t) ∧ ((∀ t, (n, t) ∉ t1Rows) → l = some (1 / 100)) := by
  obtain ⟨oos', h', hrows⟩ := C200_read hf
  rw [h, Except.ok.injEq] at h'
  subst h'
  have hd : ∀ r ∈ t1Rows, ∀ r' ∈ t1Rows, r.1 = r'.1 → r.2 = r'.2 := by decide +kernel
  have hfrom : ∀ o ∈ oos, ∃ t, (o.1, t) ∈ t1Rows ∧ o.2 = flt t := by
    intro o ho
    obtain ⟨i, hi, rfl⟩ := List.mem_iff_getElem.1 ho
    have hlen := hrows.length_eq
    have := (List.forall₂_iff_get.1 hrows).2 i (by omega) hi
    simp only [List.get_eq_getElem] at this
    exact ⟨t1Rows[i].2, by rw [this.1]; exact List.getElem_mem _, this.2.1⟩
  have hto : ∀ r ∈ t1Rows, ∃ o ∈ oos, o.1 = r.1 := by
    intro r hr
    obtain ⟨i, hi, rfl⟩ := List.mem_iff_getElem.1 hr
    have hlen := hrows.length_eq
    have := (List.forall₂_iff_get.1 hrows).2 i hi (by omega)
    exact ⟨oos[i], List.getElem_mem _, this.1⟩
  have hfirst : ∀ {m l}, FirstLevel oos m l → (m, l) ∈ oos := by
    rintro m l ⟨a, b, rfl, _⟩; simp
  constructor
  · intro t ht
    rcases hl with hl | ⟨hn, _⟩
    · obtain ⟨t', ht', he⟩ := hfrom _ (hfirst hl)
      rw [show t = t' from hd _ ht _ ht' rfl]
      exact he
    · obtain ⟨o, ho, he⟩ := hto _ ht
      exact absurd he (hn o ho)
  · intro hno
    rcases hl with hl | ⟨_, hl⟩
    · obtain ⟨t', ht', -⟩ := hfrom _ (hfirst hl)
      exact absurd ht' (hno t')
    · obtain ⟨t', ht', he⟩ := hfrom _ (hfirst hl)
      have hother : ∀ r ∈ t1Rows, r.1 = p!"Other" → r.2 = p!"0.01" := by decide +kernel
      have := hother _ ht' rfl
      simp only at this he
      rw [he, this, hf.1]

/-- The inventory is out of scope: every nuclide with activity has, per gram of the material, at most the activity of its level. The mass is
    in kilograms. -/
def Clears (oos : Limits K) (mass : K) (rows : List (InvRow K)) : Prop :=
  ∀ r ∈ rows, 0 < r.act → ∀ l, Level oos r.nuclide (some l) → r.act ≤ l * (1000 * mass)

/-- The steps as `find_when_oos` gets them. -/
def oosSteps (tss : List (TimeStep K)) : List (Nat × Arg K) := tss.map (fun ts => (ts.stepNum, invTable ts.inventory))

private theorem positive_some (a : K) : Positive (some a) ↔ 0 < a := by
  constructor
  · rintro ⟨x, h, hx⟩
    cases h
    exact hx
  · intro h
    exact ⟨a, rfl, h⟩

private theorem notOos_iff (oos : Limits K) (r : InvRow K) :
    NotOos oos (invTableRow r) ↔ 0 < r.act ∧ ∃ l, Level oos r.nuclide (some l) ∧ l * 1000 < r.act := by
  unfold NotOos AboveLevel
  rw [show (invTableRow r).act = some r.act from rfl, show (invTableRow r).nuclide = r.nuclide from rfl, positive_some]
  constructor
  · rintro ⟨h0, l, a, hl, ha, hlt⟩
    cases ha
    exact ⟨h0, l, hl, (lt_div_iff₀ (by norm_num)).1 hlt⟩
  · rintro ⟨h0, l, hl, hlt⟩
    exact ⟨h0, l, _, hl, rfl, (lt_div_iff₀ (by norm_num)).2 hlt⟩

open Classical in
private theorem check_read (onEmpty : Except Err Unit) (readOOS : Str → Except Err (Limits K)) (path : Str) (oos : Limits K)
    (hr : readOOS path = .ok oos) (ho : ∃ r ∈ oos, r.1 = p!"Other") (rows : List (InvRow K)) (hact : (∃ r ∈ rows, 0 < r.act) ∨ onEmpty = .ok ()) :
    checkInventoryOos onEmpty readOOS (invTable rows) path = .ok (decide (Clears oos 1 rows)) := by
  have h := (C48_inventory_partial onEmpty readOOS invCols (rows.map invTableRow) path oos hr (by decide) (by
    intro r _ _
    obtain ⟨o, ho, he⟩ := ho
    exact (C47_decision oos r.nuclide r.act 1000 (by norm_num)).2.2 ⟨o, ho, .inr he⟩) (by
    rcases hact with ⟨r, hr, h0⟩ | h
    · exact .inl ⟨_, List.mem_map.2 ⟨r, hr, rfl⟩, (positive_some _).2 h0⟩
    · exact .inr h)).2
  unfold invTable
  rw [h]
  congr 1
  rw [decide_eq_decide]
  unfold Clears
  constructor
  · intro hall r hr h0 l hl
    have := hall _ (List.mem_map.2 ⟨r, hr, rfl⟩)
    rw [notOos_iff] at this
    by_contra hlt
    rw [not_le, mul_one] at hlt
    exact this ⟨h0, l, hl, hlt⟩
  · intro hall x hx
    obtain ⟨r, hr, rfl⟩ := List.mem_map.1 hx
    rw [notOos_iff]
    rintro ⟨h0, l, hl, hlt⟩
    have := hall r hr h0 l hl
    rw [mul_one] at this
    exact absurd hlt (not_lt.2 this)

open Classical in
/-- C229 (part that holds): for one kilogram of material, the step returned is the first whose inventory is out of scope, and None when there is
    none. Missing: any other mass (`C229_mass_violated`), and steps without an active nuclide when pandas refuses them (C48). -/
theorem C229_first_partial (onEmpty : Except Err Unit) (readOOS : Str → Except Err (Limits K)) (path : Str) (oos : Limits K)
    (hr : readOOS p!"data/t1.txt" = .ok oos) (ho : ∃ r ∈ oos, r.1 = p!"Other") (tss : List (TimeStep K)) (hm : ∀ ts ∈ tss, ts.initialMass = 1)
    (hact : ∀ ts ∈ tss, (∃ r ∈ ts.inventory, 0 < r.act) ∨ onEmpty = .ok ()) :
    findWhenOos onEmpty readOOS path (oosSteps tss) =
      .ok ((tss.find? (fun ts => decide (Clears oos ts.initialMass ts.inventory))).map (·.stepNum)) := by
  induction tss with
  | nil => rfl
  | cons ts tss ih =>
    have hc := check_read onEmpty readOOS p!"data/t1.txt" oos hr ho ts.inventory (hact ts (by simp))
    simp only [oosSteps, List.map_cons, findWhenOos, defaultOos, hc]
    rw [List.find?_cons, hm ts (by simp)]
    by_cases h : Clears oos 1 ts.inventory
    · simp only [h, decide_true, Option.map_some]
    · simp only [h, decide_false]
      exact ih (fun t ht => hm t (by simp [ht])) (fun t ht => hact t (by simp [ht]))

/-- C229 is violated: the mass of the material is not looked at. With more than a kilogram a step that is out of scope is passed over, with
    less a step that is not out of scope is returned. -/
theorem C229_mass_violated (onEmpty : Except Err Unit) (readOOS : Str → Except Err (Limits K)) (path : Str) (oos : Limits K)
    (hr : readOOS p!"data/t1.txt" = .ok oos) (ts : TimeStep K) (r : InvRow K) (l : K) (hts : ts.inventory = [r])
    (hl : Level oos r.nuclide (some l)) (h0 : 0 < r.act) (ho : ∃ r ∈ oos, r.1 = p!"Other") :
    (l * 1000 < r.act → r.act ≤ l * (1000 * ts.initialMass) →
      Clears oos ts.initialMass ts.inventory ∧ findWhenOos onEmpty readOOS path (oosSteps [ts]) = .ok none) ∧
    (r.act ≤ l * 1000 → l * (1000 * ts.initialMass) < r.act →
      ¬ Clears oos ts.initialMass ts.inventory ∧ findWhenOos onEmpty readOOS path (oosSteps [ts]) = .ok (some ts.stepNum)) := by
  have huniq : ∀ l', Level oos r.nuclide (some l') → l' = l := by
    intro l' hl'
    have hfe : ∀ {n : Str} {x y : Option K}, FirstLevel oos n x → FirstLevel oos n y → x = y := by
      rintro n x y ⟨a, b, e1, ha⟩ ⟨c, d, e2, hc⟩
      have f1 : oos.find? (fun r => decide (r.1 = n)) = some (n, x) := by
        rw [e1, List.find?_append, List.find?_eq_none.2 (fun r hr => by simpa using ha r hr)]
        simp
      have f2 : oos.find? (fun r => decide (r.1 = n)) = some (n, y) := by
        rw [e2, List.find?_append, List.find?_eq_none.2 (fun r hr => by simpa using hc r hr)]
        simp
      rw [f1] at f2
      simpa using f2
    have hmem : ∀ {n : Str} {x : Option K}, FirstLevel oos n x → (n, x) ∈ oos := by
      rintro n x ⟨a, b, e, _⟩
      rw [e]
      simp
    rcases hl with h1 | ⟨n1, h1⟩ <;> rcases hl' with h2 | ⟨n2, h2⟩
    · simpa using hfe h2 h1
    · exact absurd rfl (n2 _ (hmem h1))
    · exact absurd rfl (n1 _ (hmem h2))
    · simpa using hfe h2 h1
  have hclear : ∀ m, Clears oos m ts.inventory ↔ r.act ≤ l * (1000 * m) := by
    intro m
    unfold Clears
    rw [hts]
    constructor
    · intro h
      exact h r (by simp) h0 l hl
    · intro h x hx _ l' hl'
      rw [List.mem_singleton] at hx
      subst hx
      rw [huniq l' hl']
      exact h
  have hc := check_read onEmpty readOOS p!"data/t1.txt" oos hr ho ts.inventory (.inl ⟨r, by rw [hts]; simp, h0⟩)
  simp only [hclear, mul_one] at hc
  simp only [hclear, oosSteps, List.map_cons, List.map_nil, findWhenOos, defaultOos, hc]
  constructor
  · intro h1 h2
    refine ⟨h2, ?_⟩
    simp only [not_le.2 h1, decide_false]
  · intro h1 h2
    refine ⟨not_le.2 h2, ?_⟩
    simp only [h1, decide_true]

example : (PrintedNuclide.mk p!"  " p!"Al" p!"26" p!"m" p!"      1").line = p!"  Al 26m      1" := by decide
example : (PrintedNuclide.mk p!"  " p!"H" p!"3" [] p!"      1").line = p!"  H   3       1" := by decide
example : (PrintedNuclide.mk p!"  " p!"H" p!"3" [] p!"      1").WF := ⟨by decide, by decide, by decide, by decide, by decide⟩
/-- 5000 Bq of tritium at a level of 4 Bq/g: out of scope in two kilograms, not in one. -/
example : Clears [(p!"H3", some (4 : ℚ))] 2 [⟨p!"H3", 1, 1, 5000, 1, 1, 1, 1, p!"H", p!"3"⟩] ∧
    ¬ Clears [(p!"H3", some (4 : ℚ))] 1 [⟨p!"H3", 1, 1, 5000, 1, 1, 1, 1, p!"H", p!"3"⟩] := by
  have hl : ∀ l : ℚ, Level [(p!"H3", some (4 : ℚ))] p!"H3" (some l) → l = 4 := by
    rintro l (⟨a, b, h, _⟩ | ⟨h, _⟩)
    · cases a with
      | nil => simp at h; exact h.1.symm
      | cons x a => simp at h
    · exact absurd rfl (h _ (List.mem_singleton.2 rfl))
  constructor
  · intro r hr _ l h
    rw [List.mem_singleton] at hr
    subst hr
    rw [hl l h]
    norm_num
  · intro h
    have := h _ (List.mem_singleton.2 rfl) (by norm_num) 4 (.inl ⟨[], [], rfl, by simp⟩)
    norm_num at this

end Props
