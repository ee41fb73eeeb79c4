/- More of C134, and C235: every field of a time step of a FISPACT output, and numbers that Fortran writes without the letter E. -/
import Verif.Props.FispactOutput3

set_option linter.unusedSectionVars false
set_option linter.unusedSimpArgs false

namespace Props
open Py FispactOutput NeutUtilities
variable {K : Type} [Field K] [LinearOrder K] [IsStrictOrderedRing K]

/-! ### C134 -/

/-- The number printed in columns `c` to `c + w` of the line `off` lines below the first one that contains the label. -/
def NumberAt (flt : Str → Option K) (lines : List Str) (label : Str) (off c w : Nat) (x : K) : Prop :=
  ∃ k l, FirstWith lines label k ∧ lines[k + off]? = some l ∧ flt ((l.drop c).take w) = some x

/-- A text that is kept when it has no letter E, and read as a number otherwise. -/
def FieldAt (flt : Str → Option K) (lines : List Str) (label : Str) (off c w : Nat) (x : Fld K) : Prop :=
  ∃ k l, FirstWith lines label k ∧ lines[k + off]? = some l ∧
    (('E' ∉ (l.drop c).take w ∧ x = .txt ((l.drop c).take w)) ∨
     ('E' ∈ (l.drop c).take w ∧ ∃ v, flt ((l.drop c).take w) = some v ∧ x = .num v))

/-- Where the numbers of a time step are printed: label, lines below it, column, width, and the attribute. -/
def stepNumbers : List (Str × Nat × Nat × Nat × (TimeStep K → K)) :=
  [(p!"ALPHA BECQUERELS", 0, 22, 12, fun t => t.alphaAct),
   (p!"ALPHA BECQUERELS", 0, 54, 12, fun t => t.betaAct),
   (p!"ALPHA BECQUERELS", 0, 87, 12, fun t => t.gammaAct),
   (p!"TOTAL ACTIVITY FOR ALL MATERIALS ", 0, 40, 11, fun t => t.totalAct),
   (p!"TOTAL ACTIVITY EXCLUDING TRITIUM ", 0, 40, 11, fun t => t.totalActNoTrit),
   (p!"TOTAL ALPHA HEAT", 0, 40, 11, fun t => t.alphaHeat),
   (p!"TOTAL ALPHA HEAT", 1, 40, 11, fun t => t.betaHeat),
   (p!"TOTAL ALPHA HEAT", 2, 40, 11, fun t => t.gammaHeat),
   (p!"TOTAL ALPHA HEAT", 2, 90, 11, fun t => t.totalHeat),
   (p!"TOTAL ALPHA HEAT", 3, 40, 11, fun t => t.initialMass),
   (p!"TOTAL ALPHA HEAT", 3, 90, 11, fun t => t.totalHeatNoTrit),
   (p!"TOTAL ALPHA HEAT", 4, 40, 11, fun t => t.totalMass),
   (p!"TOTAL ALPHA HEAT", 5, 40, 11, fun t => t.neutronFlux),
   (p!"TOTAL ALPHA HEAT", 6, 90, 11, fun t => t.actinideBurn),
   (p!"DENSITY", 0, 78, 8, fun t => t.density)]

/-- The gas contents, printed only for radioactive material. -/
def gasNumbers : List (Nat × (ActData K → Fld K)) :=
  [(0, fun a => a.he4), (1, fun a => a.he3), (2, fun a => a.h3), (3, fun a => a.h2), (4, fun a => a.h1)]

private theorem findInd_first {data : List Str} {sub : Str} {p : Nat} : findInd data sub = .ok p ↔ FirstWith data sub p :=
  C05_find_ind_ok data sub p

private theorem slice_take (l : Str) (a b : Nat) : slice l a b = (l.drop a).take (b - a) := by
  unfold slice; rw [List.drop_take]

private theorem first_unique {data : List Str} {sub : Str} {p q : Nat} (hp : FirstWith data sub p) (hq : FirstWith data sub q) : p = q := by
  have := findInd_first.2 hp
  rw [findInd_first.2 hq] at this
  simpa using this.symm

private theorem fld_ok (flt : Str → Option K) (s : Str) (x : Fld K) :
    fld flt s = .ok x ↔ ('E' ∉ s ∧ x = .txt s) ∨ ('E' ∈ s ∧ ∃ v, flt s = some v ∧ x = .num v) := by
  have hE : hasSub p!"E" s = true ↔ 'E' ∈ s := hasSub_singleton
  unfold fld
  by_cases h : 'E' ∈ s
  · rw [if_pos (hE.2 h), ex_bind_ok]
    simp only [fltE, orErr_ok_iff, ex_pure, Except.ok.injEq, h, not_true_eq_false, false_and, true_and, false_or]
    constructor
    · rintro ⟨v, hv, rfl⟩; exact ⟨v, hv, rfl⟩
    · rintro ⟨v, hv, rfl⟩; exact ⟨v, hv, rfl⟩
  · rw [if_neg (fun h' => h (hE.1 h'))]
    simp only [ex_pure, Except.ok.injEq, h, not_false_eq_true, false_and, true_and, or_false]
    exact eq_comm

/-- The radioactive part of a time step. -/
def ActiveOf (flt : Str → Option K) (lines : List Str) (a : ActData K) : Prop :=
  (∀ f ∈ (gasNumbers : List (Nat × (ActData K → Fld K))), FieldAt flt lines p!"APPM OF He  4 " f.1 23 10 (f.2 a)) ∧
  parseDominant flt lines = .ok a.dom ∧ parseComposition flt lines = .ok a.comp ∧ parseSpectra flt lines = .ok a.gspec

private theorem readActive_ok (flt : Str → Option K) (lines : List Str) (a : ActData K) :
    readActive flt lines = .ok a ↔ ActiveOf flt lines a := by
  unfold readActive ActiveOf
  simp only [ex_bind_ok, ex_pure, Except.ok.injEq, scol, orErr_ok_iff, slice_take, Nat.reduceSub, findInd_first, fld_ok,
    gasNumbers, List.forall_mem_cons, List.not_mem_nil, false_imp_iff, implies_true, and_true, FieldAt, Nat.add_zero]
  constructor
  · rintro ⟨k, hk, _, ⟨l0, h0, rfl⟩, _, g0, _, ⟨l1, h1, rfl⟩, _, g1, _, ⟨l2, h2, rfl⟩, _, g2, _, ⟨l3, h3, rfl⟩, _, g3,
      _, ⟨l4, h4, rfl⟩, _, g4, dom, hdom, comp, hcomp, g, hg, rfl⟩
    exact ⟨⟨⟨k, l0, hk, h0, g0⟩, ⟨k, l1, hk, h1, g1⟩, ⟨k, l2, hk, h2, g2⟩, ⟨k, l3, hk, h3, g3⟩, k, l4, hk, h4, g4⟩, hdom, hcomp, hg⟩
  · rintro ⟨⟨⟨k, l0, hk, h0, g0⟩, ⟨k1, l1, hk1, h1, g1⟩, ⟨k2, l2, hk2, h2, g2⟩, ⟨k3, l3, hk3, h3, g3⟩, k4, l4, hk4, h4, g4⟩,
      hdom, hcomp, hg⟩
    obtain rfl := first_unique hk hk1
    obtain rfl := first_unique hk hk2
    obtain rfl := first_unique hk hk3
    obtain rfl := first_unique hk hk4
    exact ⟨k, hk, _, ⟨l0, h0, rfl⟩, _, g0, _, ⟨l1, h1, rfl⟩, _, g1, _, ⟨l2, h2, rfl⟩, _, g2, _, ⟨l3, h3, rfl⟩, _, g3,
      _, ⟨l4, h4, rfl⟩, _, g4, _, hdom, _, hcomp, _, hg, rfl⟩

/-- C134: a time step is read exactly when every number is found in its place, and every attribute is the number printed there; the gas
    contents, dominant nuclides, composition and spectrum are read exactly when the total activity is positive. -/
theorem C134_fields (flt : Str → Option K) (lines : List Str) (i : Nat) (ts : TimeStep K) :
    readTimeStep flt lines i = .ok ts ↔
      ts.stepNum = i + 1 ∧
      (∃ l, lines[0]? = some l ∧ flt ((l.drop 50).take 10) = some ts.stepLength) ∧
      (∃ k l, FirstWith lines p!"TOTAL NUMBER OF NUCLIDES PRINTED IN INVENTORY" k ∧ lines[k]? = some l ∧
        pyInt (l.drop 50) = some ts.numNuclides) ∧
      (∀ f ∈ (stepNumbers : List (Str × Nat × Nat × Nat × (TimeStep K → K))),
        NumberAt flt lines f.1 f.2.1 f.2.2.1 f.2.2.2.1 (f.2.2.2.2 ts)) ∧
      FieldAt flt lines p!"TOTAL ALPHA HEAT" 6 39 12 ts.numFissions ∧
      (ts.totalAct ≤ 0 → ts.active = none) ∧
      (0 < ts.totalAct → ∃ a, ts.active = some a ∧ ActiveOf flt lines a) ∧
      parseInventory flt lines = .ok ts.inventory := by
  have hact : ∀ (x : K) (o : Option (ActData K)), readActiveIf flt lines x = .ok o ↔
      (x ≤ 0 → o = none) ∧ (0 < x → ∃ a, o = some a ∧ ActiveOf flt lines a) := by
    intro x o
    unfold readActiveIf
    by_cases hx : 0 < x
    · rw [if_pos hx, ex_bind_ok]
      simp only [readActive_ok, ex_pure, Except.ok.injEq, hx, not_le.2 hx, false_imp_iff, true_and, true_imp_iff]
      constructor
      · rintro ⟨a, ha, rfl⟩; exact ⟨a, rfl, ha⟩
      · rintro ⟨a, rfl, ha⟩; exact ⟨a, ha, rfl⟩
    · rw [if_neg hx]
      simp only [ex_pure, Except.ok.injEq, hx, not_lt.1 hx, true_imp_iff, false_imp_iff, and_true]
      exact eq_comm
  unfold readTimeStep
  by_cases hd : lines = []
  · subst hd
    simp [bind, Except.bind]
  simp only [hd, if_false, ex_bind_ok, ex_pure, Except.ok.injEq, fcol, scol, fltE, orErr_ok_iff, slice_take, Nat.reduceSub, findInd_first,
    fld_ok, hact, stepNumbers, List.forall_mem_cons, List.not_mem_nil, false_imp_iff, implies_true, and_true, NumberAt, FieldAt,
    Nat.add_zero]
  constructor
  · rintro ⟨sl, ⟨l0, hl0, hsl⟩, k1, hk1, lk, hlk, nn, hnn, k2, hk2, aa, ⟨m1, hm1, haa⟩, ba, ⟨m2, hm2, hba⟩, ga, ⟨m3, hm3, hga⟩,
      k3, hk3, ta, ⟨m4, hm4, hta⟩, k4, hk4, tn, ⟨m5, hm5, htn⟩, k5, hk5, ah, ⟨m6, hm6, hah⟩, bh, ⟨m7, hm7, hbh⟩, gh, ⟨m8, hm8, hgh⟩,
      th, ⟨m9, hm9, hth⟩, im, ⟨m10, hm10, him⟩, hn, ⟨m11, hm11, hhn⟩, tm, ⟨m12, hm12, htm⟩, nf, ⟨m13, hm13, hnf⟩,
      _, ⟨m14, hm14, rfl⟩, fi, hfi, ab, ⟨m15, hm15, hab⟩, k6, hk6, de, ⟨m16, hm16, hde⟩, act, ha, inv, hinv, rfl⟩
    exact ⟨rfl, ⟨l0, hl0, hsl⟩, ⟨k1, lk, hk1, hlk, hnn⟩,
      ⟨⟨k2, m1, hk2, hm1, haa⟩, ⟨k2, m2, hk2, hm2, hba⟩, ⟨k2, m3, hk2, hm3, hga⟩, ⟨k3, m4, hk3, hm4, hta⟩, ⟨k4, m5, hk4, hm5, htn⟩,
       ⟨k5, m6, hk5, hm6, hah⟩, ⟨k5, m7, hk5, hm7, hbh⟩, ⟨k5, m8, hk5, hm8, hgh⟩, ⟨k5, m9, hk5, hm9, hth⟩, ⟨k5, m10, hk5, hm10, him⟩,
       ⟨k5, m11, hk5, hm11, hhn⟩, ⟨k5, m12, hk5, hm12, htm⟩, ⟨k5, m13, hk5, hm13, hnf⟩, ⟨k5, m15, hk5, hm15, hab⟩, k6, m16, hk6, hm16, hde⟩,
      ⟨k5, m14, hk5, hm14, hfi⟩, ha.1, ha.2, hinv⟩
  · rintro ⟨hi, ⟨l0, hl0, hsl⟩, ⟨k1, lk, hk1, hlk, hnn⟩,
      ⟨⟨k2, m1, hk2, hm1, haa⟩, ⟨k2', m2, hk2', hm2, hba⟩, ⟨k2'', m3, hk2'', hm3, hga⟩, ⟨k3, m4, hk3, hm4, hta⟩, ⟨k4, m5, hk4, hm5, htn⟩,
       ⟨k5, m6, hk5, hm6, hah⟩, ⟨q1, m7, r1, hm7, hbh⟩, ⟨q2, m8, r2, hm8, hgh⟩, ⟨q3, m9, r3, hm9, hth⟩, ⟨q4, m10, r4, hm10, him⟩,
       ⟨q5, m11, r5, hm11, hhn⟩, ⟨q6, m12, r6, hm12, htm⟩, ⟨q7, m13, r7, hm13, hnf⟩, ⟨q8, m15, r8, hm15, hab⟩, k6, m16, hk6, hm16, hde⟩,
      ⟨q9, m14, r9, hm14, hfi⟩, ha1, ha2, hinv⟩
    obtain rfl := first_unique hk2 hk2'
    obtain rfl := first_unique hk2 hk2''
    obtain rfl := first_unique hk5 r1
    obtain rfl := first_unique hk5 r2
    obtain rfl := first_unique hk5 r3
    obtain rfl := first_unique hk5 r4
    obtain rfl := first_unique hk5 r5
    obtain rfl := first_unique hk5 r6
    obtain rfl := first_unique hk5 r7
    obtain rfl := first_unique hk5 r8
    obtain rfl := first_unique hk5 r9
    refine ⟨_, ⟨l0, hl0, hsl⟩, k1, hk1, lk, hlk, _, hnn, k2, hk2, _, ⟨m1, hm1, haa⟩, _, ⟨m2, hm2, hba⟩, _, ⟨m3, hm3, hga⟩,
      k3, hk3, _, ⟨m4, hm4, hta⟩, k4, hk4, _, ⟨m5, hm5, htn⟩, k5, hk5, _, ⟨m6, hm6, hah⟩, _, ⟨m7, hm7, hbh⟩, _, ⟨m8, hm8, hgh⟩,
      _, ⟨m9, hm9, hth⟩, _, ⟨m10, hm10, him⟩, _, ⟨m11, hm11, hhn⟩, _, ⟨m12, hm12, htm⟩, _, ⟨m13, hm13, hnf⟩,
      _, ⟨m14, hm14, rfl⟩, _, hfi, _, ⟨m15, hm15, hab⟩, k6, hk6, _, ⟨m16, hm16, hde⟩, _, ⟨ha1, ha2⟩, _, hinv, ?_⟩
    rw [← hi]

/-- A line with texts in given columns. -/
private def row (fs : List (Nat × Str)) : Str := fs.foldl (fun l f => l ++ List.replicate (f.1 - l.length) ' ' ++ f.2) []

private def exLines : List Str :=
  [row [(0, p!"1 * * *"), (50, p!"1001")],
   row [(0, p!"0  TOTAL NUMBER OF NUCLIDES PRINTED IN INVENTORY ="), (53, p!"0")],
   row [(0, p!"0  ALPHA BECQUERELS ="), (22, p!"1002"), (54, p!"1003"), (87, p!"1004")],
   row [(0, p!"0  TOTAL ACTIVITY FOR ALL MATERIALS "), (40, p!"0")],
   row [(0, p!"0  TOTAL ACTIVITY EXCLUDING TRITIUM "), (40, p!"1006")],
   row [(0, p!"0  TOTAL ALPHA HEAT"), (40, p!"1007")],
   row [(40, p!"1008")],
   row [(40, p!"1009"), (90, p!"1010")],
   row [(40, p!"1011"), (90, p!"1012")],
   row [(40, p!"1013")],
   row [(40, p!"1014")],
   row [(40, p!"1.2-100"), (90, p!"1015")],
   row [(0, p!"DENSITY"), (78, p!"1016")]]

private def exNum (s : Str) : Option ℚ := (pyNat (strip s)).map (fun n => (n : ℚ))

example : readTimeStep exNum exLines 2 = .ok ⟨3, 1001, 0, 1002, 1003, 1004, 0, 1006, 1007, 1008, 1009, 1010, 1011, 1012, 1013, 1014,
    .txt p!" 1.2-100    ", 1015, 1016, none, []⟩ := by decide +kernel

/-! ### C235 -/

/-- A number whose exponent has three digits, as Fortran writes it in a field for two: without the letter E, such as 1.2345-100. -/
def DropsE (s : Str) : Prop :=
  ∃ m e : Str, ∃ c : Char, s = m ++ c :: e ∧ (c = '-' ∨ c = '+') ∧ (∃ d, m.getLast? = some d ∧ d.isDigit = true) ∧
    e.length = 3 ∧ (∀ d ∈ e, d.isDigit = true) ∧ 'E' ∉ s

private theorem dropsE_noE {s : Str} (h : DropsE s) : 'E' ∉ s := by
  obtain ⟨-, -, -, -, -, -, -, -, h⟩ := h
  exact h

example : DropsE p!"1.23457-100" := ⟨p!"1.23457", p!"100", '-', by decide⟩

/-- Python's `float` does not read such numbers. -/
def RejectsDropped (flt : Str → Option K) : Prop := ∀ s, DropsE s → flt s = none

/-- The places of the numbers of a time step: label, lines below it, column and width. -/
def stepPlaces : List (Str × Nat × Nat × Nat) :=
  [(p!"ALPHA BECQUERELS", 0, 22, 12), (p!"ALPHA BECQUERELS", 0, 54, 12), (p!"ALPHA BECQUERELS", 0, 87, 12),
   (p!"TOTAL ACTIVITY FOR ALL MATERIALS ", 0, 40, 11), (p!"TOTAL ACTIVITY EXCLUDING TRITIUM ", 0, 40, 11),
   (p!"TOTAL ALPHA HEAT", 0, 40, 11), (p!"TOTAL ALPHA HEAT", 1, 40, 11), (p!"TOTAL ALPHA HEAT", 2, 40, 11), (p!"TOTAL ALPHA HEAT", 2, 90, 11),
   (p!"TOTAL ALPHA HEAT", 3, 40, 11), (p!"TOTAL ALPHA HEAT", 3, 90, 11), (p!"TOTAL ALPHA HEAT", 4, 40, 11), (p!"TOTAL ALPHA HEAT", 5, 40, 11),
   (p!"TOTAL ALPHA HEAT", 6, 90, 11), (p!"DENSITY", 0, 78, 8)]

/-- The text is one of the numbers printed for a time step. -/
inductive StepNumber : List Str → Str → Prop
  | total (lines : List Str) (f : Str × Nat × Nat × Nat) (k : Nat) (l : Str) (hf : f ∈ stepPlaces) (hk : FirstWith lines f.1 k)
      (hl : lines[k + f.2.1]? = some l) : StepNumber lines ((l.drop f.2.2.1).take f.2.2.2)
  | inventory (lines : List Str) (p : Nat) (l : Str) (c : Nat × Nat)
      (hp : FirstWith lines p!"0  TOTAL NUMBER OF NUCLIDES PRINTED IN INVENTORY" p) (hl : l ∈ (lines.take p).drop 4)
      (hc : c ∈ [(14, 11), (28, 9), (40, 9), (52, 9), (64, 8), (75, 9), (87, 9)]) : StepNumber lines ((l.drop c.1).take c.2)

/-- The text is one of the numbers printed for a time step in which the material is radioactive. -/
inductive ActiveNumber : List Str → Str → Prop
  | dominant (lines : List Str) (p d1 d2 : Nat) (l : Str) (c : Nat × Nat)
      (hp : FirstWith lines p!"DOMINANT NUCLIDES" p) (h1 : FirstWith (lines.drop p) p!"(Bq) " d1)
      (h2 : FirstWith (lines.drop p) p!"GAMMA HEAT" d2) (h0 : 0 < d2) (hl : l ∈ ((lines.drop p).take (d2 - 1)).drop (d1 + 2))
      (hc : c ∈ [(15, 10), (27, 9), (46, 10), (58, 9), (77, 10), (89, 9)]) : ActiveNumber lines ((l.drop c.1).take c.2)
  | heat (lines : List Str) (p d1 d2 : Nat) (l : Str) (c : Nat × Nat)
      (hp : FirstWith lines p!"DOMINANT NUCLIDES" p) (h1 : FirstWith (lines.drop p) p!"(Bq) " d1)
      (h2 : FirstWith (lines.drop p) p!"GAMMA HEAT" d2) (h0 : 0 < d2) (hl : l ∈ lowLines ((lines.drop p).drop (d2 + 3)))
      (hc : c ∈ [(15, 10), (27, 9), (46, 10), (58, 9)]) : ActiveNumber lines ((l.drop c.1).take c.2)
  | composition (lines : List Str) (s e : Nat) (l : Str) (hs : FirstWith lines p!"COMPOSITION  OF  MATERIAL  BY  ELEMENT" s)
      (he : FirstWith lines p!"GAMMA SPECTRUM AND ENERGIES/SECOND" e) (h3 : 3 ≤ e) (hl : l ∈ compSection lines s e) :
      ActiveNumber lines ((l.drop 20).take 10)
  | spectrum (lines : List Str) (p k : Nat) (l : Str) (hp : FirstWith lines p!"GAMMA SPECTRUM AND ENERGIES/SECOND" p) (hk : k < 24)
      (hl : lines[p + 7 + k]? = some l) : ActiveNumber lines ((l.drop 130).take 11)

private theorem forall₂_exists_of_mem {α β : Type} {R : α → β → Prop} : ∀ {l : List α} {r : List β}, List.Forall₂ R l r → ∀ {a}, a ∈ l →
    ∃ b, b ∈ r ∧ R a b
  | _, _, .cons h t, a, ha => by
    rcases List.mem_cons.1 ha with rfl | ha
    · exact ⟨_, by simp, h⟩
    · obtain ⟨b, hb, hr⟩ := forall₂_exists_of_mem t ha
      exact ⟨b, by simp [hb], hr⟩

private theorem step_number_ok {flt : Str → Option K} {lines : List Str} {i : Nat} {ts : TimeStep K} {s : Str}
    (h : readTimeStep flt lines i = .ok ts) (hs : StepNumber lines s) : flt s ≠ none := by
  obtain ⟨-, -, -, hnum, -, -, -, hinv⟩ := (C134_fields flt lines i ts).1 h
  cases hs with
  | total f k l hf hk hl =>
    have hmap : (stepNumbers : List (Str × Nat × Nat × Nat × (TimeStep K → K))).map (fun g => (g.1, g.2.1, g.2.2.1, g.2.2.2.1)) =
        stepPlaces := rfl
    rw [← hmap] at hf
    obtain ⟨f', hf', rfl⟩ := List.mem_map.1 hf
    obtain ⟨k', l', hk', hl', hx⟩ := hnum f' hf'
    obtain rfl := first_unique hk hk'
    simp only at hl
    rw [hl, Option.some.injEq] at hl'
    subst hl'
    simp only [hx]
    simp
  | inventory p l c hp hl hc =>
    obtain ⟨p', hp', hrows⟩ := (C74_inventory flt lines ts.inventory).1 hinv
    obtain rfl := first_unique hp hp'
    obtain ⟨r, -, hr⟩ := forall₂_exists_of_mem hrows hl
    obtain ⟨h1, h2, h3, h4, h5, h6, h7, -⟩ := hr
    simp only [List.mem_cons, List.not_mem_nil, or_false] at hc
    rcases hc with rfl | rfl | rfl | rfl | rfl | rfl | rfl
    · simp [h1]
    · simp [h2]
    · simp [h3]
    · simp [h4]
    · simp [h5]
    · simp [h6]
    · simp [h7]

private theorem active_number_ok {flt : Str → Option K} {lines : List Str} {a : ActData K} {s : Str}
    (h : ActiveOf flt lines a) (hs : ActiveNumber lines s) : flt s ≠ none := by
  obtain ⟨-, hdom, hcomp, hspec⟩ := h
  cases hs with
  | dominant p d1 d2 l c hp h1 h2 h0 hl hc =>
    obtain ⟨ht, -, -, -⟩ := (C133_dominant flt lines p d1 d2 a.dom.1 a.dom.2 hp h1 h2 h0).1 hdom
    obtain ⟨r, -, hr⟩ := forall₂_exists_of_mem ht hl
    obtain ⟨-, e1, e2, -, e3, e4, -, e5, e6⟩ := hr
    simp only [List.mem_cons, List.not_mem_nil, or_false] at hc
    rcases hc with rfl | rfl | rfl | rfl | rfl | rfl
    · simp [e1]
    · simp [e2]
    · simp [e3]
    · simp [e4]
    · simp [e5]
    · simp [e6]
  | heat p d1 d2 l c hp h1 h2 h0 hl hc =>
    obtain ⟨-, -, ht, -⟩ := (C133_dominant flt lines p d1 d2 a.dom.1 a.dom.2 hp h1 h2 h0).1 hdom
    obtain ⟨r, -, hr⟩ := forall₂_exists_of_mem ht hl
    obtain ⟨-, e1, e2, -, e3, e4⟩ := hr
    simp only [List.mem_cons, List.not_mem_nil, or_false] at hc
    rcases hc with rfl | rfl | rfl | rfl
    · simp [e1]
    · simp [e2]
    · simp [e3]
    · simp [e4]
  | composition s e l hs he h3 hl =>
    obtain ⟨-, hrow, -⟩ := C72_composition flt lines s e a.comp hs he h3 hcomp
    obtain ⟨n, hn⟩ := List.mem_iff_getElem?.1 hl
    obtain ⟨r, -, -, hr⟩ := hrow n l hn
    simp [hr]
  | spectrum p k l hp hk hl =>
    obtain ⟨p', hp', -, -, hx⟩ := (C73_spectrum flt lines a.gspec).1 hspec
    obtain rfl := first_unique hp hp'
    obtain ⟨l', x, hl', -, hx⟩ := hx k hk
    rw [hl, Option.some.injEq] at hl'
    subst hl'
    simp [hx]

open Classical in
example : RejectsDropped (fun s => if DropsE s then none else some (1 : ℚ)) := fun _ h => if_pos h

/-- The time step of the example with such a number as its density. -/
private def exDropped : List Str := exLines.dropLast ++ [row [(0, p!"DENSITY"), (78, p!"1.02-100")]]

private theorem exDropped_number : StepNumber exDropped p!"1.02-100" :=
  .total exDropped (p!"DENSITY", 0, 78, 8) 12 (row [(0, p!"DENSITY"), (78, p!"1.02-100")]) (by decide)
    (findInd_first.1 (by decide +kernel)) (by decide +kernel)

example (flt : Str → Option K) (hflt : RejectsDropped flt) (ts : TimeStep K) : readTimeStep flt exDropped 2 ≠ .ok ts :=
  fun h => step_number_ok h exDropped_number (hflt _ ⟨p!"1.02", p!"100", '-', by decide⟩)

/-- C235 is violated: a time step with such a number among its totals or in its inventory is not read. -/
theorem C235_step_violated (flt : Str → Option K) (lines : List Str) (i : Nat) (s : Str) (hflt : RejectsDropped flt)
    (hs : StepNumber lines s) (hd : DropsE s) (ts : TimeStep K) : readTimeStep flt lines i ≠ .ok ts :=
  fun h => step_number_ok h hs (hflt s hd)

/-- C235 is violated: a time step with activity and such a number in one of its other tables is not read. -/
theorem C235_active_violated (flt : Str → Option K) (lines : List Str) (i : Nat) (s : Str) (x : K) (hflt : RejectsDropped flt)
    (hx : NumberAt flt lines p!"TOTAL ACTIVITY FOR ALL MATERIALS " 0 40 11 x) (h0 : 0 < x)
    (hs : ActiveNumber lines s) (hd : DropsE s) (ts : TimeStep K) : readTimeStep flt lines i ≠ .ok ts := by
  intro h
  obtain ⟨-, -, -, hnum, -, -, ha, -⟩ := (C134_fields flt lines i ts).1 h
  obtain ⟨k, l, hk, hl, hx⟩ := hx
  obtain ⟨k', l', hk', hl', hx'⟩ := hnum (p!"TOTAL ACTIVITY FOR ALL MATERIALS ", 0, 40, 11, fun t => t.totalAct) (by simp [stepNumbers])
  obtain rfl := first_unique hk hk'
  simp only at hl' hx'
  rw [hl, Option.some.injEq] at hl'
  subst hl'
  rw [hx, Option.some.injEq] at hx'
  obtain ⟨a, -, ha⟩ := ha (hx' ▸ h0)
  exact active_number_ok ha hs (hflt s hd)

/-- C235 is violated: one such number in one time step after the first, or in the summary, and the whole file cannot be read. -/
theorem C235_file_violated (flt : Str → Option K) (path : Str) (pre : List Str) (cs : List (List Str)) (hflt : RejectsDropped flt)
    (hpre : ∀ l ∈ pre, ¬ StepLine l) (hcs : ∀ c ∈ cs, StepChunk c) (i : Nat) (c : List Str) (s : Str) (hi : 0 < i) (hc : cs[i]? = some c)
    (hs : StepNumber c s) (hd : DropsE s) (fo : FisOut K) : readLines flt path (pre ++ cs.flatten) ≠ .ok fo := by
  intro h
  obtain ⟨-, -, -, -, -, -, -, -, -, -, -, -, hsteps⟩ := C135_fields flt path _ fo h
  obtain ⟨-, hsteps⟩ := (C75_steps flt pre cs hpre hcs fo.timesteps).1 hsteps
  obtain ⟨t, -, ht⟩ := hsteps i c hi hc
  exact C235_step_violated flt c i s hflt hs hd t ht

/-- C235 is violated by the summary as well. -/
theorem C235_summary_violated (flt : Str → Option K) (path : Str) (data : List Str) (s e : Nat) (l : Str) (a : Nat) (hflt : RejectsDropped flt)
    (hf : isFisII data = true) (hb : findSummaryBlock data true = .ok (s, e)) (hl : l ∈ (data.take e).drop (s + 1))
    (hsep : sepLine l = false) (ha : a ∈ [24, 35, 58, 81, 104, 127, 150]) (hd : DropsE ((l.drop a).take 8)) (fo : FisOut K) :
    readLines flt path data ≠ .ok fo := by
  intro h
  obtain ⟨-, -, -, hsum, -⟩ := C135_fields flt path _ fo h
  obtain ⟨-, hrow⟩ := C70_summary flt data fo.sumdat s e hf hb hsum
  obtain ⟨n, hn⟩ := List.mem_iff_getElem?.1 hl
  obtain ⟨r, t, -, e1, e2, e3, e4, e5, e6, e7, -⟩ := hrow n l hn hsep
  have := hflt _ hd
  simp only [List.mem_cons, List.not_mem_nil, or_false] at ha
  rcases ha with rfl | rfl | rfl | rfl | rfl | rfl | rfl <;> simp_all

/-- C235 (part that holds): the number of fissions and the gas contents do not prevent the reading; the text is kept, not its value. -/
theorem C235_texts_partial (flt : Str → Option K) (lines : List Str) (i : Nat) (ts : TimeStep K) (h : readTimeStep flt lines i = .ok ts) :
    (∀ k l, FirstWith lines p!"TOTAL ALPHA HEAT" k → lines[k + 6]? = some l → DropsE ((l.drop 39).take 12) →
      ts.numFissions = .txt ((l.drop 39).take 12)) ∧
    (∀ a, ts.active = some a → ∀ f ∈ (gasNumbers : List (Nat × (ActData K → Fld K))), ∀ k l, FirstWith lines p!"APPM OF He  4 " k →
      lines[k + f.1]? = some l → DropsE ((l.drop 23).take 10) → f.2 a = .txt ((l.drop 23).take 10)) := by
  obtain ⟨-, -, -, -, hfis, hn, ha, -⟩ := (C134_fields flt lines i ts).1 h
  refine ⟨?_, ?_⟩
  · intro k l hk hl hE
    obtain ⟨k', l', hk', hl', hx⟩ := hfis
    obtain rfl := first_unique hk hk'
    rw [hl, Option.some.injEq] at hl'
    subst hl'
    rcases hx with ⟨-, hx⟩ | ⟨hE', -⟩
    · exact hx
    · exact absurd hE' (dropsE_noE hE)
  · intro a haa f hf k l hk hl hE
    have h0 : 0 < ts.totalAct := by
      by_contra h0
      rw [hn (not_lt.1 h0)] at haa
      cases haa
    obtain ⟨a', ha', hact⟩ := ha h0
    rw [haa, Option.some.injEq] at ha'
    subst ha'
    obtain ⟨k', l', hk', hl', hx⟩ := hact.1 f hf
    obtain rfl := first_unique hk hk'
    rw [hl, Option.some.injEq] at hl'
    subst hl'
    rcases hx with ⟨-, hx⟩ | ⟨hE', -⟩
    · exact hx
    · exact absurd hE' (dropsE_noE hE)

end Props
