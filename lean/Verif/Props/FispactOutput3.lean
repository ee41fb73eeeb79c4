/- Properties C72, C75, C133-C135: composition, dominant nuclides, time steps and whole FISPACT output files. -/
import Verif.Props.FispactOutput2

set_option linter.unusedSectionVars false
set_option linter.unusedSimpArgs false

namespace Props
open Py FispactOutput NeutUtilities
variable {K : Type} [Field K] [LinearOrder K] [IsStrictOrderedRing K]

/-- First line containing a text. -/
def FirstWith (data : List Str) (sub : Str) (p : Nat) : Prop :=
  Spec.IsLeast (fun j => ∃ l, data[j]? = some l ∧ sub <:+: l) p

private theorem findInd_first {data : List Str} {sub : Str} {p : Nat} : findInd data sub = .ok p ↔ FirstWith data sub p :=
  C05_find_ind_ok data sub p

private theorem first_ne_nil {data : List Str} {sub : Str} {p : Nat} (h : FirstWith data sub p) : data ≠ [] := by
  rintro rfl
  obtain ⟨⟨s, hs, _⟩, _⟩ := h
  simp at hs

/-! ### C72 -/

/-- The lines of the composition section between its header at line `s` and the spectrum header at line `e`. -/
def compSection (data : List Str) (s e : Nat) : List Str := (data.take (e - 3)).drop (s + 5)

private theorem sliceI_nat {α : Type} (l : List α) (a b : Nat) (h : b ≤ l.length) : sliceI l (a : Int) (b : Int) = slice l a b := by
  unfold sliceI clamp slice
  have e2 : ((b : Int)).toNat = b := rfl
  have e1 : ((a : Int)).toNat = a := rfl
  rw [if_pos (by omega), if_pos (by omega), e1, e2]
  rw [Nat.min_eq_left h]
  by_cases ha : a ≤ l.length
  · rw [Nat.min_eq_left ha]
  · rw [Nat.min_eq_right (by omega), List.drop_eq_nil_of_le (by simp), List.drop_eq_nil_of_le (by simp; omega)]

theorem composition_eq (flt : Str → Option K) (data : List Str) (s e : Nat)
    (hs : FirstWith data p!"COMPOSITION  OF  MATERIAL  BY  ELEMENT" s)
    (he : FirstWith data p!"GAMMA SPECTRUM AND ENERGIES/SECOND" e) (h3 : 3 ≤ e) :
    parseComposition flt data = ((compSection data s e).mapM (fun l => do
        let a ← fltE flt (slice l 20 30)
        pure (slice l 12 14, a)) >>= fun rows =>
      pure (rows.map (fun r => ⟨r.1, r.2, divO r.2 (rows.map (·.2)).sum⟩))) := by
  unfold parseComposition
  have hlen : e < data.length := by
    obtain ⟨⟨l, hl, _⟩, _⟩ := he
    exact (List.getElem?_eq_some_iff.1 hl).1
  have hz : ((e : Int) - 3) = ((e - 3 : Nat) : Int) := by omega
  simp only [first_ne_nil hs, if_false, findInd_first.2 hs, findInd_first.2 he, ex_ok_bind, hz,
    sliceI_nat data (s + 5) (e - 3) (by omega)]
  rfl

/-- C72: one row per line of the section, fractions proportional to the atoms, summing to 1 when the total is not zero. -/
theorem C72_composition (flt : Str → Option K) (data : List Str) (s e : Nat) (rows : List (CompRow K))
    (hs : FirstWith data p!"COMPOSITION  OF  MATERIAL  BY  ELEMENT" s)
    (he : FirstWith data p!"GAMMA SPECTRUM AND ENERGIES/SECOND" e) (h3 : 3 ≤ e)
    (h : parseComposition flt data = .ok rows) :
    rows.length = (compSection data s e).length ∧
    (∀ (k : Nat) (l : Str), (compSection data s e)[k]? = some l → ∃ r : CompRow K, rows[k]? = some r ∧
      r.element = (l.drop 12).take 2 ∧ flt ((l.drop 20).take 10) = some r.atoms) ∧
    ((rows.map (fun r => r.atoms)).sum ≠ 0 →
      (∀ r ∈ rows, ∃ f, r.fraction = some f ∧ f * (rows.map (fun r => r.atoms)).sum = r.atoms) ∧
      (rows.map (fun r => r.fraction.getD 0)).sum = 1) := by
  rw [composition_eq flt data s e hs he h3, ex_bind_ok] at h
  obtain ⟨rs, hrs, h⟩ := h
  simp only [ex_pure, Except.ok.injEq] at h
  subst h
  rw [mapM_except_ok_iff] at hrs
  have hlen := hrs.length_eq
  refine ⟨by simp [hlen], ?_, ?_⟩
  · intro k l hk
    have hk1 := (List.getElem?_eq_some_iff.1 hk).1
    have hk2 := (List.getElem?_eq_some_iff.1 hk).2
    have := hrs.get hk1 (hlen ▸ hk1)
    simp only [List.get_eq_getElem, hk2, ex_bind_ok, fltE, orErr_ok_iff, ex_pure, Except.ok.injEq] at this
    obtain ⟨a, ha, hr⟩ := this
    refine ⟨⟨(rs[k]'(hlen ▸ hk1)).1, (rs[k]'(hlen ▸ hk1)).2, divO (rs[k]'(hlen ▸ hk1)).2 (rs.map (·.2)).sum⟩, ?_, ?_, ?_⟩
    · rw [List.getElem?_map, List.getElem?_eq_getElem (hlen ▸ hk1)]; rfl
    · rw [← hr]; simp only [slice]; rw [List.drop_take]
    · rw [← hr]; simp only
      rw [← ha]; congr 1; simp only [slice]; rw [List.drop_take]
  · have hm : (rs.map (fun r => (⟨r.1, r.2, divO r.2 (rs.map (·.2)).sum⟩ : CompRow K))).map (fun r => r.atoms) =
        rs.map (·.2) := by rw [List.map_map]; rfl
    rw [hm]
    intro h0
    constructor
    · intro r hr
      simp only [List.mem_map] at hr
      obtain ⟨x, _, rfl⟩ := hr
      exact ⟨x.2 / (rs.map (·.2)).sum, by simp [divO, h0], by rw [div_mul_cancel₀ _ h0]⟩
    · rw [List.map_map]
      have : ((fun r : CompRow K => r.fraction.getD 0) ∘ fun r : Str × K =>
          (⟨r.1, r.2, divO r.2 (rs.map (·.2)).sum⟩ : CompRow K)) = fun r => r.2 * (rs.map (·.2)).sum⁻¹ := by
        funext r; simp [divO, h0, div_eq_mul_inv]
      rw [this, List.sum_map_mul_right, mul_inv_cancel₀ h0]

/-- C72: the parse fails exactly when the number of atoms of some line is not a number, and then with ValueError. -/
theorem C72_error (flt : Str → Option K) (data : List Str) (s e : Nat) (x : Err)
    (hs : FirstWith data p!"COMPOSITION  OF  MATERIAL  BY  ELEMENT" s)
    (he : FirstWith data p!"GAMMA SPECTRUM AND ENERGIES/SECOND" e) (h3 : 3 ≤ e) :
    parseComposition flt data = .error x ↔
      x = .ValueError ∧ ∃ l ∈ compSection data s e, flt ((l.drop 20).take 10) = none := by
  rw [composition_eq flt data s e hs he h3, ex_bind_err]
  simp only [ex_pure, reduceCtorEq, and_false, exists_false, or_false]
  have hsl : ∀ l : Str, slice l 20 30 = (l.drop 20).take 10 := by intro l; unfold slice; rw [List.drop_take]
  have herr : ∀ (l : Str) (y : Err), ((do
        let a ← fltE flt (slice l 20 30)
        pure (slice l 12 14, a) : Except Err (Str × K)) = .error y) ↔ y = .ValueError ∧ flt ((l.drop 20).take 10) = none := by
    intro l y
    rw [ex_bind_err]
    simp only [ex_pure, reduceCtorEq, and_false, exists_false, or_false, fltE, orErr_err_iff, hsl]
    exact and_comm
  constructor
  · intro h
    obtain ⟨l, hl, hx⟩ := mapM_except_err h
    obtain ⟨h1, h2⟩ := (herr l x).1 hx
    exact ⟨h1, l, hl, h2⟩
  · rintro ⟨rfl, l, hl, h⟩
    exact mapM_except_err_of (fun a _ e' h' => ((herr a e').1 h').1) ⟨l, hl, _, (herr l _).2 ⟨rfl, h⟩⟩

/-- C72: a missing header raises ValueError. -/
theorem C72_missing (flt : Str → Option K) (data : List Str)
    (h : (∀ l ∈ data, ¬ p!"COMPOSITION  OF  MATERIAL  BY  ELEMENT" <:+: l) ∨
      (∀ l ∈ data, ¬ p!"GAMMA SPECTRUM AND ENERGIES/SECOND" <:+: l)) :
    parseComposition flt data = .error .ValueError := by
  unfold parseComposition
  by_cases hd : data = []
  · simp [hd, bind, Except.bind]
  · simp only [hd, if_false]
    rcases h with h | h
    · rw [(C05_find_ind_error _ _ _).2 ⟨rfl, h⟩]; rfl
    · cases hf : findInd data p!"COMPOSITION  OF  MATERIAL  BY  ELEMENT" with
      | error e =>
        have := ((C05_find_ind_error _ _ _).1 hf).1
        subst this; rfl
      | ok p =>
        rw [ex_ok_bind, (C05_find_ind_error _ _ _).2 ⟨rfl, h⟩]; rfl

example : parseComposition (fun s => if s = p!"2.0000E+00" then some (2 : ℚ) else some 6)
    [p!"COMPOSITION  OF  MATERIAL  BY  ELEMENT", [], [], [], [], p!"            H       2.0000E+00", p!"            Fe      6.0000E+00",
     [], [], [], p!"GAMMA SPECTRUM AND ENERGIES/SECOND"] =
    .ok [⟨p!"H ", 2, some (1/4)⟩, ⟨p!"Fe", 6, some (3/4)⟩] := by decide +kernel

/-! ### C133 -/

/-- Row of the upper half of the dominant nuclide table for a line. -/
def DomTopOf (flt : Str → Option K) (l : Str) (r : DomTop K) : Prop :=
  r.actNuc = ((l.drop 7).take 6).filter (fun c => c ≠ ' ') ∧ flt ((l.drop 15).take 10) = some r.act ∧
  flt ((l.drop 27).take 9) = some r.actPercent ∧
  r.heatNuc = ((l.drop 38).take 6).filter (fun c => c ≠ ' ') ∧ flt ((l.drop 46).take 10) = some r.heat ∧
  flt ((l.drop 58).take 9) = some r.heatPercent ∧
  r.drNuc = ((l.drop 69).take 6).filter (fun c => c ≠ ' ') ∧ flt ((l.drop 77).take 10) = some r.dr ∧
  flt ((l.drop 89).take 9) = some r.drPercent

/-- Row of the lower half. -/
def DomLowOf (flt : Str → Option K) (l : Str) (r : DomLow K) : Prop :=
  r.gheatNuc = ((l.drop 7).take 6).filter (fun c => c ≠ ' ') ∧ flt ((l.drop 15).take 10) = some r.gheat ∧
  flt ((l.drop 27).take 9) = some r.gheatPercent ∧
  r.bheatNuc = ((l.drop 38).take 6).filter (fun c => c ≠ ' ') ∧ flt ((l.drop 46).take 10) = some r.bheat ∧
  flt ((l.drop 58).take 9) = some r.bheatPercent

private theorem slice_take (l : Str) (a b : Nat) : slice l a b = (l.drop a).take (b - a) := by
  unfold slice; rw [List.drop_take]

private theorem domTopRow_ok (flt : Str → Option K) (l : Str) (r : DomTop K) : domTopRow flt l = .ok r ↔ DomTopOf flt l r := by
  unfold domTopRow DomTopOf
  simp only [ex_bind_ok, fltE, orErr_ok_iff, ex_pure, Except.ok.injEq, slice_take, Printlib.replace_space, Nat.reduceSub]
  obtain ⟨a, b, c, d, e, f, g, h, i⟩ := r
  simp only [DomTop.mk.injEq]
  constructor
  · rintro ⟨_, h1, _, h2, _, h3, _, h4, _, h5, _, h6, rfl, rfl, rfl, rfl, rfl, rfl, rfl, rfl, rfl⟩
    exact ⟨rfl, h1, h2, rfl, h3, h4, rfl, h5, h6⟩
  · rintro ⟨rfl, h1, h2, rfl, h3, h4, rfl, h5, h6⟩
    exact ⟨_, h1, _, h2, _, h3, _, h4, _, h5, _, h6, rfl, rfl, rfl, rfl, rfl, rfl, rfl, rfl, rfl⟩

private theorem domLowRow_ok (flt : Str → Option K) (l : Str) (r : DomLow K) : domLowRow flt l = .ok r ↔ DomLowOf flt l r := by
  unfold domLowRow DomLowOf
  simp only [ex_bind_ok, fltE, orErr_ok_iff, ex_pure, Except.ok.injEq, slice_take, Printlib.replace_space, Nat.reduceSub]
  obtain ⟨a, b, c, d, e, f⟩ := r
  simp only [DomLow.mk.injEq]
  constructor
  · rintro ⟨_, h1, _, h2, _, h3, _, h4, rfl, rfl, rfl, rfl, rfl, rfl⟩
    exact ⟨rfl, h1, h2, rfl, h3, h4⟩
  · rintro ⟨rfl, h1, h2, rfl, h3, h4⟩
    exact ⟨_, h1, _, h2, _, h3, _, h4, rfl, rfl, rfl, rfl, rfl, rfl⟩

private theorem domTopRow_err (flt : Str → Option K) (l : Str) (e : Err) (h : domTopRow flt l = .error e) : e = .ValueError := by
  unfold domTopRow at h
  simp only [ex_bind_err, fltE, orErr_err_iff, orErr_ok_iff, ex_pure, reduceCtorEq, and_false, exists_false, or_false] at h
  tauto

private theorem domLowRow_err (flt : Str → Option K) (l : Str) (e : Err) (h : domLowRow flt l = .error e) : e = .ValueError := by
  unfold domLowRow at h
  simp only [ex_bind_err, fltE, orErr_err_iff, orErr_ok_iff, ex_pure, reduceCtorEq, and_false, exists_false, or_false] at h
  tauto

/-- The lines of the lower half: up to the first line starting with "1". -/
def lowLines (ls : List Str) : List Str := ls.takeWhile (fun l => l.head? != some '1')

private theorem domLow_ok (flt : Str → Option K) (ls : List Str) (rs : List (DomLow K)) :
    domLow flt ls = .ok rs ↔ (∀ l ∈ lowLines ls, l ≠ []) ∧ List.Forall₂ (DomLowOf flt) (lowLines ls) rs := by
  induction ls generalizing rs with
  | nil =>
    simp only [domLow, Except.ok.injEq, lowLines, List.takeWhile_nil, List.not_mem_nil, false_implies, implies_true, true_and,
      List.forall₂_nil_left_iff]
    exact eq_comm
  | cons l ls ih =>
    unfold domLow
    cases l with
    | nil =>
      have hl : lowLines ([] :: ls) = [] :: lowLines ls := by unfold lowLines; rw [List.takeWhile_cons_of_pos]; rfl
      rw [hl]
      simp [orErr, ex_err_bind]
    | cons c cs =>
      simp only [List.getElem?_cons_zero, orErr, ex_ok_bind]
      by_cases hc : c = '1'
      · rw [if_pos hc]
        simp only [ex_pure, Except.ok.injEq, lowLines, hc, List.head?_cons, bne_self_eq_false, Bool.false_eq_true,
          not_false_eq_true, List.takeWhile_cons_of_neg, List.not_mem_nil, false_implies, implies_true, true_and,
          List.forall₂_nil_left_iff]
        exact eq_comm
      · rw [if_neg hc]
        have hl : lowLines ((c :: cs) :: ls) = (c :: cs) :: lowLines ls := by
          unfold lowLines; rw [List.takeWhile_cons_of_pos]; simpa using hc
        rw [hl]
        simp only [ex_bind_ok, domLowRow_ok, ex_pure, Except.ok.injEq, ih]
        constructor
        · rintro ⟨r, hr, rs', ⟨h1, h2⟩, rfl⟩
          refine ⟨?_, .cons hr h2⟩
          intro l hl
          rcases List.mem_cons.1 hl with rfl | hl
          · simp
          · exact h1 l hl
        · rintro ⟨h1, h2⟩
          cases h2 with
          | cons hr h2 => exact ⟨_, hr, _, ⟨fun l hl => h1 l (List.mem_cons_of_mem _ hl), h2⟩, rfl⟩

private theorem domLow_err (flt : Str → Option K) (ls : List Str) (e : Err) (h : domLow flt ls = .error e) :
    e = .ValueError ∨ (e = .IndexError ∧ [] ∈ lowLines ls) := by
  induction ls with
  | nil => simp [domLow] at h
  | cons l ls ih =>
    unfold domLow at h
    cases l with
    | nil =>
      simp [orErr, ex_err_bind] at h
      have hl : lowLines ([] :: ls) = [] :: lowLines ls := by unfold lowLines; rw [List.takeWhile_cons_of_pos]; rfl
      exact Or.inr ⟨h.symm, by rw [hl]; simp⟩
    | cons c cs =>
      simp only [List.getElem?_cons_zero, orErr, ex_ok_bind] at h
      by_cases hc : c = '1'
      · rw [if_pos hc] at h; simp [ex_pure] at h
      · rw [if_neg hc] at h
        simp only [ex_bind_err, ex_pure, reduceCtorEq, and_false, exists_false, or_false] at h
        have hl : lowLines ((c :: cs) :: ls) = (c :: cs) :: lowLines ls := by
          unfold lowLines; rw [List.takeWhile_cons_of_pos]; simpa using hc
        rcases h with h | ⟨r, _, h⟩
        · exact Or.inl (domLowRow_err flt _ e h)
        · rcases ih h with h | ⟨h1, h2⟩
          · exact Or.inl h
          · exact Or.inr ⟨h1, by rw [hl]; exact List.mem_cons_of_mem _ h2⟩

/-- C133: for a dominant nuclide table whose headers are in order, the result has one row for each line of the two halves, and
    the two halves have the same number of rows. -/
theorem C133_dominant (flt : Str → Option K) (data : List Str) (p d1 d2 : Nat) (top : List (DomTop K)) (low : List (DomLow K))
    (hp : FirstWith data p!"DOMINANT NUCLIDES" p) (h1 : FirstWith (data.drop p) p!"(Bq) " d1)
    (h2 : FirstWith (data.drop p) p!"GAMMA HEAT" d2) (hd : 0 < d2) :
    parseDominant flt data = .ok (top, low) ↔
      List.Forall₂ (DomTopOf flt) (((data.drop p).take (d2 - 1)).drop (d1 + 2)) top ∧
      (∀ l ∈ lowLines ((data.drop p).drop (d2 + 3)), l ≠ []) ∧
      List.Forall₂ (DomLowOf flt) (lowLines ((data.drop p).drop (d2 + 3))) low ∧
      (top ≠ [] → low.length = top.length) := by
  have hlen : d2 < (data.drop p).length := by
    obtain ⟨⟨l, hl, _⟩, _⟩ := h2
    exact (List.getElem?_eq_some_iff.1 hl).1
  have hz : ((d2 : Int) - 1) = ((d2 - 1 : Nat) : Int) := by omega
  unfold parseDominant
  simp only [first_ne_nil hp, if_false, findInd_first.2 hp, findInd_first.2 h1, findInd_first.2 h2, ex_ok_bind, hz,
    sliceI_nat (data.drop p) (d1 + 2) (d2 - 1) (by omega), ex_bind_ok, domLow_ok]
  have htop : ∀ t, (slice (data.drop p) (d1 + 2) (d2 - 1)).mapM (domTopRow flt) = .ok t ↔
      List.Forall₂ (DomTopOf flt) (((data.drop p).take (d2 - 1)).drop (d1 + 2)) t := by
    intro t
    rw [mapM_except_ok_iff]
    constructor <;> intro h <;> exact h.imp (fun a b => by rw [domTopRow_ok]; exact id)
  simp only [htop]
  constructor
  · rintro ⟨t, ht, lo, ⟨hl1, hl2⟩, h⟩
    by_cases hc : t ≠ [] ∧ lo.length ≠ t.length
    · simp [hc, bind, Except.bind] at h
    · simp only [hc, if_false, ex_pure, Except.ok.injEq, Prod.mk.injEq] at h
      obtain ⟨rfl, rfl⟩ := h
      refine ⟨ht, hl1, hl2, fun hne => ?_⟩
      by_contra hh; exact hc ⟨hne, hh⟩
  · rintro ⟨ht, hl1, hl2, hh⟩
    refine ⟨top, ht, low, ⟨hl1, hl2⟩, ?_⟩
    have hc : ¬ (top ≠ [] ∧ low.length ≠ top.length) := fun hc => hc.2 (hh hc.1)
    simp only [hc, if_false, ex_pure]

/-- C133: failures are ValueError, except that an empty line in the lower half raises IndexError. -/
theorem C133_error_partial (flt : Str → Option K) (data : List Str) (e : Err) (h : parseDominant flt data = .error e) :
    e = .ValueError ∨ (e = .IndexError ∧ [] ∈ data) := by
  unfold parseDominant at h
  by_cases hd : data = []
  · simp [hd, bind, Except.bind] at h; exact Or.inl h.symm
  · simp only [hd, if_false, ex_bind_err, ex_pure, reduceCtorEq, false_or] at h
    rcases h with h | ⟨p, _, h⟩
    · exact Or.inl ((C05_find_ind_error _ _ _).1 h).1
    rcases h with h | ⟨d1, _, h⟩
    · exact Or.inl ((C05_find_ind_error _ _ _).1 h).1
    rcases h with h | ⟨d2, _, h⟩
    · exact Or.inl ((C05_find_ind_error _ _ _).1 h).1
    rcases h with h | ⟨t, _, h⟩
    · obtain ⟨l, _, hx⟩ := mapM_except_err h
      exact Or.inl (domTopRow_err flt l e hx)
    rcases h with h | ⟨lo, _, h⟩
    · rcases domLow_err flt _ e h with h | ⟨h1, h2⟩
      · exact Or.inl h
      · refine Or.inr ⟨h1, ?_⟩
        exact List.mem_of_mem_drop (List.mem_of_mem_drop ((List.takeWhile_sublist _).subset h2))
    · split at h
      · simp [ex_err_bind] at h; exact Or.inl h.symm
      · simp [ex_pure, ex_ok_bind] at h

/-- C133 fails for every table with an empty line before the end of the lower half: IndexError although bad lines are meant to give
    ValueError. -/
theorem C133_any_violated (flt : Str → Option K) (data : List Str) (p d1 d2 : Nat) (top : List (DomTop K)) (low : List (DomLow K))
    (pre more : List Str) (hp : FirstWith data p!"DOMINANT NUCLIDES" p) (h1 : FirstWith (data.drop p) p!"(Bq) " d1)
    (h2 : FirstWith (data.drop p) p!"GAMMA HEAT" d2) (hd : 0 < d2)
    (ht : List.Forall₂ (DomTopOf flt) (((data.drop p).take (d2 - 1)).drop (d1 + 2)) top)
    (hl : (data.drop p).drop (d2 + 3) = pre ++ [] :: more) (hpre : ∀ l ∈ pre, ∃ c cs, l = c :: cs ∧ c ≠ '1')
    (hlow : List.Forall₂ (DomLowOf flt) pre low) : parseDominant flt data = .error .IndexError := by
  have hlen : d2 < (data.drop p).length := by
    obtain ⟨⟨l, hl, _⟩, _⟩ := h2
    exact (List.getElem?_eq_some_iff.1 hl).1
  have hz : ((d2 : Int) - 1) = ((d2 - 1 : Nat) : Int) := by omega
  have htop : (slice (data.drop p) (d1 + 2) (d2 - 1)).mapM (domTopRow flt) = .ok top := by
    rw [mapM_except_ok_iff]
    exact ht.imp (fun a b => by rw [domTopRow_ok]; exact id)
  have hlo : domLow flt (pre ++ [] :: more) = .error .IndexError := by
    clear hl
    induction hlow with
    | nil => rfl
    | @cons l r ls rs hr _ ih =>
      obtain ⟨c, cs, rfl, hc⟩ := hpre l (by simp)
      rw [List.cons_append, domLow]
      simp only [List.getElem?_cons_zero, orErr, ex_ok_bind]
      rw [if_neg hc, (domLowRow_ok flt _ r).2 hr, ex_ok_bind, ih (fun l h => hpre l (by simp [h]))]
      rfl
  unfold parseDominant
  simp only [first_ne_nil hp, if_false, findInd_first.2 hp, findInd_first.2 h1, findInd_first.2 h2, ex_ok_bind, hz,
    sliceI_nat (data.drop p) (d1 + 2) (d2 - 1) (by omega), htop, hl, hlo]
  rfl

/-- C133 fails: an empty line in the lower half gives IndexError although bad lines are meant to give ValueError. -/
theorem C133_empty_line_violated :
    ∃ (flt : Str → Option ℚ) (data : List Str), parseDominant flt data = .error .IndexError :=
  ⟨fun _ => some 1, [p!"DOMINANT NUCLIDES", p!"(Bq) ", [], p!" x", [], p!"GAMMA HEAT", [], [], p!" x", []], by decide +kernel⟩

example : parseDominant (fun _ => some (1 : ℚ)) [p!"x", p!"DOMINANT NUCLIDES", p!"(Bq) ", [], p!"    1  H   3", [],
    p!"GAMMA HEAT", [], [], p!"    1  Fe 55 ", p!"1 * * *"] =
    .ok ([⟨p!"H3", 1, 1, [], 1, 1, [], 1, 1⟩], [⟨p!"Fe55", 1, 1, [], 1, 1⟩]) := by decide +kernel

/-! ### C75 -/

/-- A line that starts a time step. -/
def StepLine (l : Str) : Prop := p!"1 * * *" <+: l

private theorem isMarker_iff (l : Str) : isMarker l = true ↔ StepLine l := by
  unfold isMarker StepLine slice
  simp only [Bool.and_eq_true, decide_eq_true_eq, beq_iff_eq, List.drop_zero]
  constructor
  · rintro ⟨_, h⟩; rw [← h]; exact List.take_prefix _ _
  · rintro ⟨t, rfl⟩; simp

/-- A chunk of a file: a start line followed by lines that are not start lines. -/
def StepChunk (c : List Str) : Prop := ∃ m body, c = m :: body ∧ StepLine m ∧ ∀ l ∈ body, ¬ StepLine l

private def offs : Nat → List (List Str) → List Nat
  | _, [] => []
  | n, c :: cs => n :: offs (n + c.length) cs

private theorem markers_none (ls : List Str) (n : Nat) (h : ∀ l ∈ ls, ¬ StepLine l) :
    (ls.zipIdx n).filterMap (fun e => if isMarker e.1 then some e.2 else none) = [] := by
  rw [List.filterMap_eq_nil_iff]
  rintro ⟨l, k⟩ hk
  have := (List.mem_zipIdx hk).2.2
  have hm : l ∈ ls := by rw [this]; exact List.getElem_mem _
  rw [if_neg]
  rw [isMarker_iff]; exact h l hm

private theorem markers_chunks (cs : List (List Str)) (n : Nat) (h : ∀ c ∈ cs, StepChunk c) :
    (cs.flatten.zipIdx n).filterMap (fun e => if isMarker e.1 then some e.2 else none) = offs n cs := by
  induction cs generalizing n with
  | nil => rfl
  | cons c cs ih =>
    obtain ⟨m, body, hc, hm, hb⟩ := h c (by simp)
    rw [List.flatten_cons, List.zipIdx_append, List.filterMap_append]
    rw [ih _ (fun c hc => h c (by simp [hc]))]
    subst hc
    rw [List.zipIdx_cons, List.filterMap_cons_some (b := n), markers_none body _ hb]
    · rfl
    · simp only [(isMarker_iff m).2 hm, if_true]

private theorem offs_get (cs : List (List Str)) (n i : Nat) :
    (offs n cs)[i]? = if i < cs.length then some (n + (cs.take i).flatten.length) else none := by
  induction cs generalizing n i with
  | nil => simp [offs]
  | cons c cs ih =>
    cases i with
    | zero => simp [offs]
    | succ i =>
      simp only [offs, List.getElem?_cons_succ, ih, List.length_cons, Nat.add_lt_add_iff_right, List.take_succ_cons,
        List.flatten_cons, List.length_append]
      split
      · congr 1; omega
      · rfl

private theorem offs_length (cs : List (List Str)) (n : Nat) : (offs n cs).length = cs.length := by
  induction cs generalizing n with
  | nil => rfl
  | cons c cs ih => simp [offs, ih]

/-- C75: if the file consists of lines without a start line followed by chunks that each begin with a start line, then the time
    steps are read from the second, third, ... chunk, and numbered 2, 3, ... -/
theorem C75_steps (flt : Str → Option K) (pre : List Str) (cs : List (List Str)) (hpre : ∀ l ∈ pre, ¬ StepLine l)
    (hcs : ∀ c ∈ cs, StepChunk c) (ts : List (TimeStep K)) :
    readSteps flt (pre ++ cs.flatten) (markers (pre ++ cs.flatten)) = .ok ts ↔
      ts.length = cs.length - 1 ∧ ∀ (i : Nat) (c : List Str), 0 < i → cs[i]? = some c →
        ∃ t, ts[i - 1]? = some t ∧ readTimeStep flt c i = .ok t := by
  have hm : markers (pre ++ cs.flatten) = offs pre.length cs := by
    unfold markers
    rw [List.zipIdx_append, List.filterMap_append, markers_none pre _ hpre, List.nil_append, Nat.zero_add,
      markers_chunks cs _ hcs]
  rw [hm]
  unfold readSteps
  rw [offs_length]
  -- the data of step `i`
  have hdata : ∀ i (hi : i < cs.length), (do
      let s ← orErr Err.IndexError (offs pre.length cs)[i]?
      readTimeStep flt (stepData (pre ++ cs.flatten) (offs pre.length cs) i s) i) = readTimeStep flt cs[i] i := by
    intro i hi
    rw [offs_get, if_pos hi]
    simp only [orErr, ex_ok_bind, stepData]
    rw [offs_get]
    have hsplit : pre ++ cs.flatten = (pre ++ (cs.take i).flatten) ++ (cs[i] ++ (cs.drop (i + 1)).flatten) := by
      conv_lhs => rw [← List.take_append_drop i cs, List.drop_eq_getElem_cons hi]
      rw [List.flatten_append, List.flatten_cons, List.append_assoc]
    have hl : pre.length + (cs.take i).flatten.length = (pre ++ (cs.take i).flatten).length := by simp
    by_cases hi1 : i + 1 < cs.length
    · rw [if_pos hi1]
      simp only
      have hl2 : pre.length + (cs.take (i + 1)).flatten.length = (pre ++ (cs.take i).flatten).length + cs[i].length := by
        rw [List.take_succ_eq_append_getElem hi, List.flatten_append, List.length_append, List.length_append]; simp [-List.length_flatten]; omega
      unfold slice
      rw [hl, hl2, hsplit, List.take_length_add_append, List.drop_left, List.take_left]
    · rw [if_neg hi1]
      simp only
      rw [hl, hsplit, List.drop_left]
      have : cs.drop (i + 1) = [] := List.drop_eq_nil_of_le (by omega)
      rw [this]; simp
  rw [mapM_except_ok_iff, List.forall₂_iff_get]
  simp only [List.length_range', List.get_eq_getElem, List.getElem_range', Nat.one_mul]
  constructor
  · rintro ⟨h1, h2⟩
    refine ⟨h1.symm, fun i c hi hc => ?_⟩
    obtain ⟨hlt, rfl⟩ := List.getElem?_eq_some_iff.1 hc
    have h3 := h2 (i - 1) (by omega) (by omega)
    rw [show 1 + (i - 1) = i by omega, hdata i hlt] at h3
    exact ⟨_, List.getElem?_eq_getElem (by omega), h3⟩
  · rintro ⟨h1, h2⟩
    refine ⟨h1.symm, fun i hi1 hi2 => ?_⟩
    have hlt : 1 + i < cs.length := by omega
    obtain ⟨t, ht, hr⟩ := h2 (1 + i) cs[1 + i] (by omega) (List.getElem?_eq_getElem hlt)
    rw [hdata (1 + i) hlt, hr]
    rw [show 1 + i - 1 = i by omega, List.getElem?_eq_getElem hi2] at ht
    simp only [Option.some.injEq] at ht
    rw [ht]

/-- C75: every list of lines has that form, so the above describes every file. -/
theorem C75_form (lines : List Str) : ∃ (pre : List Str) (cs : List (List Str)), lines = pre ++ cs.flatten ∧
    (∀ l ∈ pre, ¬ StepLine l) ∧ ∀ c ∈ cs, StepChunk c := by
  induction lines with
  | nil => exact ⟨[], [], rfl, by simp, by simp⟩
  | cons l ls ih =>
    obtain ⟨pre, cs, rfl, hp, hc⟩ := ih
    by_cases h : StepLine l
    · refine ⟨[], (l :: pre) :: cs, by simp, by simp, ?_⟩
      intro c hcm
      rcases List.mem_cons.1 hcm with rfl | hcm
      · exact ⟨l, pre, rfl, h, hp⟩
      · exact hc c hcm
    · refine ⟨l :: pre, cs, by simp, ?_, hc⟩
      intro l' hl'
      rcases List.mem_cons.1 hl' with rfl | hl'
      · exact h
      · exact hp l' hl'

/-! ### C134 -/

/-- C134: a time step that is read carries its number, and each value is the number in its columns of the line found by its
    label (or of a line at a fixed distance); the number of fissions stays a text when it has no "E"; helium and hydrogen
    contents, dominant nuclides, composition and spectrum are read exactly when the total activity is positive. -/
theorem C134_time_step (flt : Str → Option K) (lines : List Str) (i : Nat) (ts : TimeStep K)
    (h : readTimeStep flt lines i = .ok ts) :
    ts.stepNum = i + 1 ∧
    (∃ l, lines[0]? = some l ∧ flt ((l.drop 50).take 10) = some ts.stepLength) ∧
    (∃ k l, FirstWith lines p!"TOTAL ACTIVITY FOR ALL MATERIALS " k ∧ lines[k]? = some l ∧
      flt ((l.drop 40).take 11) = some ts.totalAct) ∧
    (∃ k l0 l1 l2 l6, FirstWith lines p!"TOTAL ALPHA HEAT" k ∧ lines[k]? = some l0 ∧ lines[k + 1]? = some l1 ∧
      lines[k + 2]? = some l2 ∧ lines[k + 6]? = some l6 ∧ flt ((l0.drop 40).take 11) = some ts.alphaHeat ∧
      flt ((l1.drop 40).take 11) = some ts.betaHeat ∧ flt ((l2.drop 40).take 11) = some ts.gammaHeat ∧
      flt ((l2.drop 90).take 11) = some ts.totalHeat ∧
      (∀ s, ts.numFissions = .txt s ↔ s = (l6.drop 39).take 12 ∧ 'E' ∉ s) ∧
      (∀ x, ts.numFissions = .num x ↔ 'E' ∈ (l6.drop 39).take 12 ∧ flt ((l6.drop 39).take 12) = some x)) ∧
    (ts.totalAct ≤ 0 → ts.active = none) ∧
    (0 < ts.totalAct → ∃ a, ts.active = some a ∧ parseDominant flt lines = .ok a.dom ∧
      parseComposition flt lines = .ok a.comp ∧ parseSpectra flt lines = .ok a.gspec) ∧
    parseInventory flt lines = .ok ts.inventory := by
  unfold readTimeStep at h
  by_cases hd : lines = []
  · simp [hd, bind, Except.bind] at h
  simp only [hd, if_false, ex_bind_ok, ex_pure, Except.ok.injEq, fcol, scol, fltE, orErr_ok_iff, slice_take, Nat.reduceSub,
    findInd_first] at h
  obtain ⟨sl, ⟨l0, hl0, hsl⟩, _, _, _, _, _, _, _, _, _, _, _, _, _, _, ka, hka, ta, ⟨la, hla, hta⟩, _, _, _, _,
    kh, hkh, ah, ⟨m0, hm0, hah⟩, bh, ⟨m1, hm1, hbh⟩, gh, ⟨m2, hm2, hgh⟩, th, ⟨m2', hm2', hth⟩, _, _, _, _, _, _, _, _,
    _, ⟨l6, hl6, rfl⟩, fi, hfi, _, _, _, _, _, _, act, hact, inv, hinv, rfl⟩ := h
  rw [hm2] at hm2'
  simp only [Option.some.injEq] at hm2'
  subst hm2'
  have hE : ∀ s : Str, hasSub p!"E" s = true ↔ 'E' ∈ s := fun s => hasSub_singleton
  refine ⟨rfl, ⟨l0, hl0, hsl⟩, ⟨ka, la, hka, hla, hta⟩, ⟨kh, m0, m1, m2, l6, hkh, hm0, hm1, hm2, hl6, hah, hbh, hgh, hth, ?_, ?_⟩,
    ?_, ?_, hinv⟩
  · intro s
    unfold fld at hfi
    by_cases he : hasSub p!"E" ((l6.drop 39).take 12) = true
    · rw [if_pos he, ex_bind_ok] at hfi
      obtain ⟨x, _, hx⟩ := hfi
      simp only [ex_pure, Except.ok.injEq] at hx
      subst hx
      simp only [reduceCtorEq, false_iff, not_and, not_not]
      rintro rfl
      exact (hE _).1 he
    · rw [if_neg he] at hfi
      simp only [ex_pure, Except.ok.injEq] at hfi
      subst hfi
      simp only [Fld.txt.injEq]
      constructor
      · rintro rfl; exact ⟨rfl, fun h => he ((hE _).2 h)⟩
      · rintro ⟨rfl, _⟩; rfl
  · intro s
    unfold fld at hfi
    by_cases he : hasSub p!"E" ((l6.drop 39).take 12) = true
    · rw [if_pos he, ex_bind_ok] at hfi
      obtain ⟨x, hx', hx⟩ := hfi
      simp only [ex_pure, Except.ok.injEq] at hx
      subst hx
      simp only [fltE, orErr_ok_iff] at hx'
      simp only [Fld.num.injEq, (hE _).1 he, true_and, hx', Option.some.injEq]
    · rw [if_neg he] at hfi
      simp only [ex_pure, Except.ok.injEq] at hfi
      subst hfi
      simp only [reduceCtorEq, false_iff, not_and]
      intro h; exact absurd ((hE _).2 h) he
  · intro h0
    simp only [readActiveIf, gt_iff_lt, not_lt.2 h0, if_false, ex_pure, Except.ok.injEq] at hact
    exact hact.symm
  · intro h0
    simp only [readActiveIf, gt_iff_lt, h0, if_true] at hact
    rw [ex_bind_ok] at hact
    obtain ⟨a, ha, hact⟩ := hact
    simp only [ex_pure, Except.ok.injEq] at hact
    refine ⟨a, hact.symm, ?_⟩
    unfold readActive at ha
    simp only [ex_bind_ok, ex_pure, Except.ok.injEq] at ha
    obtain ⟨_, _, _, _, _, _, _, _, _, _, _, _, _, _, _, _, _, _, _, _, _, _, dom, hdom, comp, hcomp, g, hg, rfl⟩ := ha
    exact ⟨hdom, hcomp, hg⟩

/-- A short time step for the examples: every label is present and every number reads as 0. -/
def exStep : List Str := [p!"1 * * * ", p!"0  TOTAL NUMBER OF NUCLIDES PRINTED IN INVENTORY      7",
  p!"ALPHA BECQUERELS TOTAL ACTIVITY FOR ALL MATERIALS TOTAL ACTIVITY EXCLUDING TRITIUM TOTAL ALPHA HEAT DENSITY",
  [], [], [], [], [], []]

example : (readTimeStep (fun _ => some (0 : ℚ)) exStep 4).map (fun t => (t.stepNum, t.numNuclides, t.active.isSome, t.numFissions)) =
    .ok (5, 7, false, .txt []) := by decide +kernel
example : (readSteps (fun _ => some (0 : ℚ)) ([[]] ++ [[p!"1 * * * first"], exStep, exStep].flatten)
    (markers ([[]] ++ [[p!"1 * * * first"], exStep, exStep].flatten))).map (fun ts => ts.map (fun t => t.stepNum)) =
    .ok [2, 3] := by decide +kernel

/-! ### C135 -/

/-- C135: a missing path raises FileNotFoundError, a directory ValueError, and the file system is not changed; otherwise the
    result depends only on the lines of the file. -/
theorem C135_paths (flt : Str → Option K) (path : Str) (fs : FS) :
    (fs.node path = none → readFisOut flt path fs = (.error .FileNotFoundError, fs)) ∧
    (fs.node path = some .dir → readFisOut flt path fs = (.error .ValueError, fs)) ∧
    (∀ c, fs.node path = some (.file c) → readFisOut flt path fs = (readLines flt path (splitlines (univNL c)), fs)) := by
  refine ⟨fun h => ?_, fun h => ?_, fun c h => ?_⟩
  · simp [readFisOut, h]
  · simp [readFisOut, h]
  · simp [readFisOut, h, getLines_file h]

/-- C135: the fields of the result belong together: version and flag, table and index of the first cooling row, masses in
    kilograms and grams, and the time steps of C75. -/
theorem C135_fields (flt : Str → Option K) (path : Str) (lines : List Str) (fo : FisOut K)
    (h : readLines flt path lines = .ok fo) :
    fo.fileName = path ∧ fo.version = checkFispVersion lines ∧ (fo.fisII = true ↔ fo.version ≠ p!"FISP07") ∧
    readSummaryData flt lines = .ok fo.sumdat ∧
    (∀ k, fo.coolingIndex = some k ↔ Spec.IsLeast (fun j => ∃ r : SumRow K, fo.sumdat[j]? = some r ∧ r.cooling = true) k) ∧
    (fo.coolingIndex = none ↔ ∀ r ∈ fo.sumdat, r.cooling = false) ∧
    readMass flt lines = .ok fo.massKg ∧ fo.massG = 1000 * fo.massKg ∧
    readParameter flt lines p!"Mean flux" = .ok fo.aveFlux ∧
    readParameter flt lines p!"Total irradiation time" = .ok fo.totIrradTime ∧
    readParameter flt lines p!"Total fluence" = .ok fo.totFluence ∧
    readParameter flt lines p!"Number of on-times" = .ok fo.numIrradStep ∧
    readSteps flt lines (markers lines) = .ok fo.timesteps := by
  unfold readLines at h
  simp only [ex_bind_ok, ex_pure, Except.ok.injEq] at h
  obtain ⟨sd, hsd, af, haf, ti, hti, tf, htf, ni, hni, mk, hmk, cpu, hcpu, ts, hts, rfl⟩ := h
  have hget : ∀ j : Nat, (sd.zipIdx.map (fun e => (e.2, e.1)))[j]? = (sd[j]?).map (fun r => (j, r)) := by
    intro j; rw [List.getElem?_map, List.getElem?_zipIdx]
    cases sd[j]? <;> simp
  refine ⟨rfl, rfl, (C67_version lines).2.2, hsd, ?_, ?_, hmk, mul_comm _ _, haf, hti, htf, hni, hts⟩
  · intro k
    rw [(C71_first_index _).1]
    constructor
    · rintro ⟨k', r, h1, h2, h3⟩
      rw [hget] at h1
      cases hs : sd[k']? with
      | none => rw [hs] at h1; simp at h1
      | some r' =>
        rw [hs] at h1
        simp only [Option.map_some, Option.some.injEq, Prod.mk.injEq] at h1
        obtain ⟨rfl, rfl⟩ := h1
        refine ⟨⟨r', hs, h2⟩, ?_⟩
        rintro j hj ⟨q, hq, hqc⟩
        have := h3 j hj (j, q) (by rw [hget, hq]; rfl)
        simp only at this
        rw [hqc] at this; simp at this
    · rintro ⟨⟨r, h1, h2⟩, h3⟩
      refine ⟨k, r, by rw [hget, h1]; rfl, h2, ?_⟩
      intro j hj q hq
      rw [hget] at hq
      cases hs : sd[j]? with
      | none => rw [hs] at hq; simp at hq
      | some r' =>
        rw [hs] at hq
        simp only [Option.map_some, Option.some.injEq] at hq
        subst hq
        cases hc : r'.cooling with
        | false => rfl
        | true => exact absurd ⟨r', hs, hc⟩ (h3 j hj)
  · rw [(C71_first_index _).2]
    simp only [List.mem_map, Prod.exists, forall_exists_index, and_imp]
    constructor
    · intro h r hr
      obtain ⟨i, hi, rfl⟩ := List.mem_iff_getElem.1 hr
      exact h (i, sd[i]) sd[i] i (by rw [List.mk_mem_zipIdx_iff_getElem?]; exact List.getElem?_eq_getElem hi) rfl
    · rintro h _ r i hr rfl
      rw [List.mk_mem_zipIdx_iff_getElem?] at hr
      exact h r (List.mem_of_getElem? hr)

end Props
