/- Properties C70, C72, C75, C77: summary table, composition, time steps and mass line of FISPACT output files. -/
import Verif.Props.FispactOutput
import Verif.Proofs.Lines
import Mathlib.Tactic.IntervalCases

set_option linter.unusedSectionVars false
set_option linter.unusedSimpArgs false

namespace Props
open Py FispactOutput NeutUtilities
variable {K : Type} [Field K] [LinearOrder K] [IsStrictOrderedRing K]

/-! ### C77 -/

/-- A line with the mass of the material, written as the text `g`. -/
def MassLine (l g : Str) : Prop :=
  ∃ w s1 s2 s3 s4 rest, l = w ++ (p!"0" ++ (s1 ++ (p!"Mass of material input" ++ (s2 ++ (p!"=" ++ (s3 ++ (g ++ (s4 ++
      (p!"kg." ++ rest))))))))) ∧
    Spec.Blank w ∧ Spec.Blank s1 ∧ s1 ≠ [] ∧ Spec.Blank s2 ∧ Spec.Blank s3 ∧ Spec.Blank s4 ∧
    g ≠ [] ∧ ∀ c ∈ g, c ∈ p!"0123456789.Ee+-"

private theorem numClass_mem : ∀ c ∈ p!"0123456789.Ee+-", numClass c = true ∧ isSpace c = false := by decide

private theorem numClass_iff (c : Char) : numClass c = true ↔ c ∈ p!"0123456789.Ee+-" := by
  constructor
  · intro h
    simp only [numClass, Bool.or_eq_true, beq_iff_eq, isDigit, Char.isDigit, Bool.and_eq_true, decide_eq_true_eq] at h
    rcases h with ((((h | h) | h) | h) | h) | h
    · obtain ⟨h1, h2⟩ := h
      have h1' : 48 ≤ c.toNat := by simpa [UInt32.le_iff_toNat_le] using h1
      have h2' : c.toNat ≤ 57 := by simpa [UInt32.le_iff_toNat_le] using h2
      have : c = Char.ofNat c.toNat := (Char.ofNat_toNat c).symm
      rw [this]
      generalize c.toNat = n at *
      interval_cases n <;> decide
    all_goals subst h; decide
  · intro h; exact (numClass_mem c h).1

private theorem lit_iff {s pre t : Str} : lit s pre = some t ↔ s = pre ++ t := by
  unfold lit
  constructor
  · intro h
    split at h
    · rename_i hs
      obtain ⟨r, rfl⟩ := startsWith_iff.1 hs
      simp only [List.drop_left, Option.some.injEq] at h
      rw [h]
    · simp at h
  · rintro rfl
    rw [if_pos (startsWith_iff.2 ⟨t, rfl⟩), List.drop_left]

private theorem dropWhile_blank {p : Char → Bool} {s t : Str} (hs : ∀ c ∈ s, p c = true) (ht : ∀ c ∈ t.head?, p c = false) :
    (s ++ t).dropWhile p = t ∧ (s ++ t).takeWhile p = s := by
  have h : t.dropWhile p = t ∧ t.takeWhile p = [] := by
    cases t with
    | nil => simp
    | cons c cs => simp [ht c (by simp)]
  rw [List.dropWhile_append_of_pos hs, List.takeWhile_append_of_pos hs, h.1, h.2]
  simp

private theorem massMatch_iff (s g : Str) : massMatch s = some g ↔
    ∃ s1 s2 s3 s4 rest, s = p!"0" ++ (s1 ++ (p!"Mass of material input" ++ (s2 ++ (p!"=" ++ (s3 ++ (g ++ (s4 ++
      (p!"kg." ++ rest)))))))) ∧
    Spec.Blank s1 ∧ s1 ≠ [] ∧ Spec.Blank s2 ∧ Spec.Blank s3 ∧ Spec.Blank s4 ∧
    g ≠ [] ∧ ∀ c ∈ g, c ∈ p!"0123456789.Ee+-" := by
  have dec : ∀ (p : Char → Bool) (t : Str), t = t.takeWhile p ++ t.dropWhile p := fun p t => (List.takeWhile_append_dropWhile).symm
  have bl : ∀ t : Str, Spec.Blank (t.takeWhile isSpace) := fun t c hc => List.mem_takeWhile_imp hc
  constructor
  · intro h
    unfold massMatch at h
    simp only [Option.bind_eq_bind, Option.bind_eq_some_iff, lit_iff, Option.pure_def] at h
    obtain ⟨t1, rfl, h⟩ := h
    split at h
    · simp at h
    rename_i hs1
    simp only [Option.bind_some, Option.bind_eq_some_iff, lit_iff] at h
    obtain ⟨t2, ht2, t3, ht3, h⟩ := h
    split at h
    · simp at h
    rename_i hg
    simp only [Option.bind_some, Option.bind_eq_some_iff, lit_iff, Option.some.injEq] at h
    obtain ⟨t4, ht4, rfl⟩ := h
    refine ⟨t1.takeWhile isSpace, t2.takeWhile isSpace, t3.takeWhile isSpace,
      ((t3.dropWhile isSpace).dropWhile numClass).takeWhile isSpace, t4, ?_, bl _, hs1, bl _, bl _, bl _, hg, ?_⟩
    · conv_lhs => rw [dec isSpace t1, ht2, dec isSpace t2, ht3, dec isSpace t3, dec numClass (t3.dropWhile isSpace),
        dec isSpace ((t3.dropWhile isSpace).dropWhile numClass), ht4]
    · intro c hc
      exact (numClass_iff c).1 (List.mem_takeWhile_imp (p := numClass) hc)
  · rintro ⟨s1, s2, s3, s4, rest, rfl, h1, h1', h2, h3, h4, hg, hc⟩
    have hcl : ∀ c ∈ g, numClass c = true := fun c h => (numClass_iff c).2 (hc c h)
    have e1 := dropWhile_blank (p := isSpace) (s := s1) (t := p!"Mass of material input" ++ (s2 ++ (p!"=" ++ (s3 ++ (g ++ (s4 ++
      (p!"kg." ++ rest))))))) h1 (by intro c hc; simp at hc; subst hc; decide)
    have e2 := dropWhile_blank (p := isSpace) (s := s2) (t := p!"=" ++ (s3 ++ (g ++ (s4 ++
      (p!"kg." ++ rest))))) h2 (by intro c hc; simp at hc; subst hc; decide)
    have hgs : ∀ c ∈ g, isSpace c = false := by
      intro c h; exact (numClass_mem c (hc c h)).2
    have e3 := dropWhile_blank (p := isSpace) (s := s3) (t := g ++ (s4 ++ (p!"kg." ++ rest))) h3 (by
      intro c hc
      cases g with
      | nil => exact absurd rfl hg
      | cons x xs => simp at hc; subst hc; exact hgs _ (by simp))
    have e4 := dropWhile_blank (p := numClass) (s := g) (t := s4 ++ (p!"kg." ++ rest)) hcl (by
      intro c hc
      cases s4 with
      | nil => simp at hc; subst hc; decide
      | cons x xs =>
        simp at hc; subst hc
        cases hx : numClass x with
        | false => rfl
        | true =>
          have hb := h4 x (by simp)
          rw [(numClass_mem x ((numClass_iff x).1 hx)).2] at hb
          exact absurd hb (by simp))
    have e5 := dropWhile_blank (p := isSpace) (s := s4) (t := p!"kg." ++ rest) h4
      (by intro c hc; simp at hc; subst hc; decide)
    unfold massMatch
    rw [lit_iff.2 rfl]
    simp only [Option.bind_eq_bind, Option.bind_some, e1.1, e1.2, h1', if_false]
    rw [lit_iff.2 rfl]
    simp only [Option.bind_eq_bind, Option.bind_some, e2.1]
    rw [lit_iff.2 rfl]
    simp only [Option.bind_eq_bind, Option.bind_some, e3.1, e4.1, e4.2, hg, if_false, e5.1]
    rw [lit_iff.2 rfl]
    rfl

private theorem rstrip_append_last {a b : Str} {c : Char} (hc : isSpace c = false) :
    rstrip (a ++ c :: b) = a ++ c :: rstrip b := by
  obtain ⟨t, ht, hb⟩ := rstrip_decomp b
  have h1 : rstrip (a ++ c :: b) = rstrip (a ++ c :: rstrip b) := by
    conv_lhs => rw [ht]
    rw [show a ++ c :: (rstrip b ++ t) = (a ++ c :: rstrip b) ++ t by simp, rstrip_append_blank hb]
  rw [h1, rstrip_eq_self_iff]
  intro hne
  by_cases hr : rstrip b = []
  · simp [hr, hc]
  · rw [List.getLast_append_of_ne_nil _ (by simp), List.getLast_cons hr]
    exact rstrip_last hr

private theorem massMatch_strip (l g : Str) : massMatch (strip l) = some g ↔ MassLine l g := by
  rw [massMatch_iff]
  constructor
  · rintro ⟨s1, s2, s3, s4, rest, h, hh⟩
    obtain ⟨a, b, hl, ha, hb⟩ := strip_decomp l
    refine ⟨a, s1, s2, s3, s4, rest ++ b, ?_, ha, hh⟩
    rw [h] at hl
    rw [hl]; simp
  · rintro ⟨w, s1, s2, s3, s4, rest, rfl, hw, hh⟩
    refine ⟨s1, s2, s3, s4, rstrip rest, ?_, hh⟩
    unfold strip lstrip
    rw [(dropWhile_blank (p := isSpace) hw (by intro c hc; simp at hc; subst hc; decide)).1]
    have hassoc : ∀ r : Str, p!"0" ++ (s1 ++ (p!"Mass of material input" ++ (s2 ++ (p!"=" ++ (s3 ++ (g ++ (s4 ++
      (p!"kg." ++ r)))))))) = (p!"0" ++ (s1 ++ (p!"Mass of material input" ++ (s2 ++ (p!"=" ++ (s3 ++ (g ++ (s4 ++
      p!"kg")))))))) ++ '.' :: r := by intro r; simp
    rw [hassoc, rstrip_append_last (by decide), hassoc]

/-- C77: with no mass line the result is 0, otherwise it is the number in the first mass line, ValueError if that text is not a
    number. -/
theorem C77_read_mass (flt : Str → Option K) (lines : List Str) :
    ((∀ l ∈ lines, ∀ g, ¬ MassLine l g) → readMass flt lines = .ok 0) ∧
    (∀ (i : Nat) (l g : Str), lines[i]? = some l → MassLine l g → (∀ j < i, ∀ l', lines[j]? = some l' → ∀ g', ¬ MassLine l' g') →
      (∀ x, flt g = some x → readMass flt lines = .ok x) ∧ (flt g = none → readMass flt lines = .error .ValueError)) := by
  induction lines with
  | nil => simp [readMass]
  | cons a as ih =>
    obtain ⟨ih1, ih2⟩ := ih
    constructor
    · intro h
      have hn : massMatch (strip a) = none := by
        cases hm : massMatch (strip a) with
        | none => rfl
        | some g => exact absurd ((massMatch_strip a g).1 hm) (h a (by simp) g)
      rw [readMass, hn]
      exact ih1 (fun l hl => h l (by simp [hl]))
    · intro i l g hi hm hb
      cases i with
      | zero =>
        simp only [List.getElem?_cons_zero, Option.some.injEq] at hi
        subst hi
        rw [readMass, (massMatch_strip a g).2 hm]
        constructor
        · intro x hx; simp [fltE, hx, orErr]
        · intro hx; simp [fltE, hx, orErr]
      | succ i =>
        have hn : massMatch (strip a) = none := by
          cases hm' : massMatch (strip a) with
          | none => rfl
          | some g' => exact absurd ((massMatch_strip a g').1 hm') (hb 0 (by omega) a rfl g')
        rw [readMass, hn]
        exact ih2 i l g hi hm (fun j hj l' hl' => hb (j + 1) (by omega) l' hl')

/-- C77: the text of the number of a line is unique, so the result does not depend on how the line is taken apart. -/
theorem C77_unique (l g g' : Str) (h : MassLine l g) (h' : MassLine l g') : g = g' := by
  rw [← massMatch_strip] at h h'
  rw [h] at h'
  exact Option.some.inj h'

example : readMass (fun s => if s = p!"1.5E-3" then some (3/2000 : ℚ) else none)
    [p!"x", p!" 0  Mass of material input =  1.5E-3 kg. and more", p!"0 Mass of material input = 2 kg."] = .ok (3/2000) := by
  decide +kernel

/-! ### C70 -/

/-- A phase separator: second character "-". -/
def sepLine (l : Str) : Bool := l[1]? == some '-'

/-- Number of data lines before position `p`. -/
def rowsBefore (ls : List Str) (p : Nat) : Nat := (ls.take p).countP (fun l => !sepLine l)

/-- A separator at position `q`. -/
def SepAt (ls : List Str) (q : Nat) : Prop := ∃ l, ls[q]? = some l ∧ sepLine l = true

/-- The table for the lines of a summary block: one row per data line; values from fixed columns; the cooling flag says whether a
    separator came before; times are as printed before the first separator and otherwise offset by the time in the last row
    before the latest separator; the unit columns follow from the time. -/
def SummaryOf (flt : Str → Option K) (ls : List Str) (rows : List (SumRow K)) : Prop :=
  rows.length = ls.countP (fun l => !sepLine l) ∧
  ∀ (p : Nat) (l : Str), ls[p]? = some l → sepLine l = false → ∃ (r : SumRow K) (t : K),
    rows[rowsBefore ls p]? = some r ∧
    flt ((l.drop 24).take 8) = some t ∧ flt ((l.drop 35).take 8) = some r.act ∧ flt ((l.drop 58).take 8) = some r.dose ∧
    flt ((l.drop 81).take 8) = some r.heat ∧ flt ((l.drop 104).take 8) = some r.ing ∧
    flt ((l.drop 127).take 8) = some r.inhal ∧ flt ((l.drop 150).take 8) = some r.trit ∧
    (r.cooling = true ↔ ∃ q < p, SepAt ls q) ∧
    (r.cooling = false → r.time = t) ∧
    (∀ q < p, SepAt ls q → (∀ j, q < j → j < p → ¬ SepAt ls j) →
      ∃ r' : SumRow K, 0 < rowsBefore ls q ∧ rows[rowsBefore ls q - 1]? = some r' ∧ r.time = t + r'.time) ∧
    r.days = r.time * 365.4 ∧ r.hours = r.days * 24 ∧ r.secs = r.hours * 3600

/-- Invariant of the loop. -/
private def SumInv (flt : Str → Option K) (ls : List Str) (st : SumSt K) : Prop :=
  SummaryOf flt ls st.rows ∧ (st.cool = true ↔ ∃ q, SepAt ls q) ∧ (st.cool = false → st.off = 0) ∧
  (∀ q, SepAt ls q → (∀ j, q < j → ¬ SepAt ls j) →
    ∃ r' : SumRow K, 0 < rowsBefore ls q ∧ st.rows[rowsBefore ls q - 1]? = some r' ∧ st.off = r'.time)

private theorem sepAt_lt {ls : List Str} {q : Nat} (h : SepAt ls q) : q < ls.length := by
  obtain ⟨l, h, _⟩ := h
  exact (List.getElem?_eq_some_iff.1 h).1

private theorem sepAt_append_lt {ls : List Str} {x : Str} {q : Nat} (h : q < ls.length) :
    SepAt (ls ++ [x]) q ↔ SepAt ls q := by
  unfold SepAt; rw [List.getElem?_append_left h]

private theorem sepAt_append_len {ls : List Str} {x : Str} : SepAt (ls ++ [x]) ls.length ↔ sepLine x = true := by
  unfold SepAt; simp

private theorem rowsBefore_append {ls : List Str} {x : Str} {q : Nat} (h : q ≤ ls.length) :
    rowsBefore (ls ++ [x]) q = rowsBefore ls q := by
  unfold rowsBefore; rw [List.take_append_of_le_length h]

private theorem sepLine_iff {l : Str} {c : Char} (h : l[1]? = some c) : sepLine l = true ↔ c = '-' := by
  unfold sepLine; rw [h]; simp

private theorem sumStep_inv (flt : Str → Option K) (ls : List Str) (x : Str) (st st' : SumSt K) (hi : SumInv flt ls st)
    (h : sumStep flt st x = .ok st') : SumInv flt (ls ++ [x]) st' := by
  obtain ⟨⟨hlen, hrow⟩, hcool, hoff, hlast⟩ := hi
  have hrb : rowsBefore ls ls.length = st.rows.length := by unfold rowsBefore; rw [List.take_length, hlen]
  unfold sumStep at h
  rw [ex_bind_ok] at h
  obtain ⟨c, hc, h⟩ := h
  rw [orErr_ok_iff] at hc
  by_cases hd : c = '-'
  · have hs : sepLine x = true := (sepLine_iff hc).2 hd
    rw [if_pos hd, ex_bind_ok] at h
    obtain ⟨r, hr, h⟩ := h
    rw [orErr_ok_iff] at hr
    simp only [ex_pure, Except.ok.injEq] at h
    subst h
    refine ⟨⟨by simp [hlen, hs], ?_⟩, ?_, by simp, ?_⟩
    · intro p l hp hl
      have hpl : p < ls.length := by
        rcases Nat.lt_trichotomy p ls.length with h | h | h
        · exact h
        · subst h; simp at hp; subst hp; rw [hs] at hl; simp at hl
        · rw [List.getElem?_eq_none (by simp; omega)] at hp; simp at hp
      rw [List.getElem?_append_left hpl] at hp
      obtain ⟨r, t, g1, g2, g3, g4, g5, g6, g7, g8, g9, g10, g11, g12⟩ := hrow p l hp hl
      refine ⟨r, t, by rw [rowsBefore_append hpl.le]; exact g1, g2, g3, g4, g5, g6, g7, g8, ?_, g10, ?_, g12⟩
      · rw [g9]
        constructor
        · rintro ⟨q, hq, hh⟩; exact ⟨q, hq, (sepAt_append_lt (by omega)).2 hh⟩
        · rintro ⟨q, hq, hh⟩; exact ⟨q, hq, (sepAt_append_lt (by omega)).1 hh⟩
      · intro q hq hsq hno
        obtain ⟨r', k1, k2, k3⟩ := g11 q hq ((sepAt_append_lt (by omega)).1 hsq)
          (fun j h1 h2 h3 => hno j h1 h2 ((sepAt_append_lt (by omega)).2 h3))
        exact ⟨r', by rw [rowsBefore_append (by omega)]; exact k1, by rw [rowsBefore_append (by omega)]; exact k2, k3⟩
    · simp only [true_iff]
      exact ⟨ls.length, sepAt_append_len.2 hs⟩
    · intro q hq hno
      have hq' : q = ls.length := by
        have := sepAt_lt hq
        simp only [List.length_append, List.length_singleton] at this
        by_contra hne
        exact hno ls.length (by omega) (sepAt_append_len.2 hs)
      subst hq'
      have hne : 0 < st.rows.length := by
        rcases hrs : st.rows with _ | ⟨a, b⟩
        · rw [hrs] at hr; simp at hr
        · simp
      refine ⟨r, by rw [rowsBefore_append le_rfl, hrb]; exact hne, ?_, rfl⟩
      rw [rowsBefore_append le_rfl, hrb, ← hr, List.getLast?_eq_getElem?]
  · have hs : sepLine x = false := by
      rw [← Bool.not_eq_true, sepLine_iff hc]; exact hd
    rw [if_neg hd] at h
    simp only [ex_bind_ok, fltE, orErr_ok_iff, ex_pure, Except.ok.injEq] at h
    obtain ⟨t, e1, a, e2, d, e3, hh, e4, i, e5, n, e6, tr, e7, rfl⟩ := h
    have hsl : ∀ a : Nat, slice x a (a + 8) = (x.drop a).take 8 := by
      intro a; unfold slice; rw [List.drop_take]; simp
    have s1 := hsl 24; have s2 := hsl 35; have s3 := hsl 58; have s4 := hsl 81
    have s5 := hsl 104; have s6 := hsl 127; have s7 := hsl 150
    norm_num at s1 s2 s3 s4 s5 s6 s7
    rw [s1] at e1; rw [s2] at e2; rw [s3] at e3; rw [s4] at e4; rw [s5] at e5; rw [s6] at e6; rw [s7] at e7
    have hnew : ∀ q, SepAt (ls ++ [x]) q ↔ SepAt ls q := by
      intro q
      constructor
      · intro h
        have := sepAt_lt h
        simp only [List.length_append, List.length_singleton] at this
        rcases Nat.lt_or_ge q ls.length with h1 | h1
        · exact (sepAt_append_lt h1).1 h
        · have : q = ls.length := by omega
          subst this
          rw [sepAt_append_len, hs] at h; simp at h
      · intro h; exact (sepAt_append_lt (sepAt_lt h)).2 h
    refine ⟨⟨by simp [hlen, hs], ?_⟩, ?_, hoff, ?_⟩
    · intro p l hp hl
      have hpl := (List.getElem?_eq_some_iff.1 hp).1
      simp only [List.length_append, List.length_singleton] at hpl
      rcases Nat.lt_or_ge p ls.length with h1 | h1
      · rw [List.getElem?_append_left h1] at hp
        obtain ⟨r, t, g1, g2, g3, g4, g5, g6, g7, g8, g9, g10, g11, g12⟩ := hrow p l hp hl
        have hlt := (List.getElem?_eq_some_iff.1 g1).1
        refine ⟨r, t, ?_, g2, g3, g4, g5, g6, g7, g8, ?_, g10, ?_, g12⟩
        · rw [rowsBefore_append h1.le, List.getElem?_append_left hlt]; exact g1
        · rw [g9]; simp only [hnew]
        · intro q hq hsq hno
          simp only [hnew] at hsq hno
          obtain ⟨r', k1, k2, k3⟩ := g11 q hq hsq hno
          refine ⟨r', by rw [rowsBefore_append (by omega)]; exact k1, ?_, k3⟩
          rw [rowsBefore_append (by omega), List.getElem?_append_left (List.getElem?_eq_some_iff.1 k2).1]
          exact k2
      · have : p = ls.length := by omega
        subst this
        simp only [List.getElem?_append_right le_rfl, Nat.sub_self, List.getElem?_cons_zero, Option.some.injEq] at hp
        subst hp
        refine ⟨⟨t + st.off, a, d, hh, i, n, tr, st.cool, (t + st.off) * 365.4, (t + st.off) * (365.4 * 24),
          (t + st.off) * (365.4 * 24 * 3600)⟩, t, ?_, e1, e2, e3, e4, e5, e6, e7, ?_, ?_, ?_, rfl, ?_, ?_⟩
        · rw [rowsBefore_append le_rfl, hrb, List.getElem?_append_right le_rfl, Nat.sub_self]
          rfl
        · simp only [hnew, hcool]
          constructor
          · rintro ⟨q, hq⟩; exact ⟨q, sepAt_lt hq, hq⟩
          · rintro ⟨q, _, hq⟩; exact ⟨q, hq⟩
        · intro hf; rw [hoff hf, add_zero]
        · intro q hq hsq hno
          simp only [hnew] at hsq hno
          obtain ⟨r', k1, k2, k3⟩ := hlast q hsq (fun j hj hsj => hno j hj (sepAt_lt hsj) hsj)
          refine ⟨r', by rw [rowsBefore_append (by omega)]; exact k1, ?_, by rw [k3]⟩
          rw [rowsBefore_append (by omega), List.getElem?_append_left (List.getElem?_eq_some_iff.1 k2).1]
          exact k2
        · exact (mul_assoc _ _ _).symm
        · exact (mul_assoc _ _ _).symm
    · rw [hcool]; simp only [hnew]
    · intro q hq hno
      simp only [hnew] at hq hno
      have := sepAt_lt hq
      obtain ⟨r', k1, k2, k3⟩ := hlast q hq hno
      refine ⟨r', by rw [rowsBefore_append (by omega)]; exact k1, ?_, k3⟩
      rw [rowsBefore_append (by omega), List.getElem?_append_left (List.getElem?_eq_some_iff.1 k2).1]
      exact k2

private theorem sumFold_inv (flt : Str → Option K) (ls : List Str) (st : SumSt K)
    (h : ls.foldlM (sumStep flt) ⟨[], 0, false⟩ = .ok st) : SumInv flt ls st := by
  induction ls using List.reverseRecOn generalizing st with
  | nil =>
    simp only [List.foldlM_nil, ex_pure, Except.ok.injEq] at h
    subst h
    have hno : ∀ q, ¬ SepAt [] q := by rintro q ⟨l, h, _⟩; simp at h
    exact ⟨⟨rfl, by simp⟩, by simp [hno], fun _ => rfl, fun q hq => absurd hq (hno q)⟩
  | append_singleton ls x ih =>
    rw [List.foldlM_append, ex_bind_ok] at h
    obtain ⟨st1, h1, h2⟩ := h
    simp only [List.foldlM_cons, List.foldlM_nil, ex_bind_ok, ex_pure, Except.ok.injEq] at h2
    obtain ⟨st2, h2, rfl⟩ := h2
    exact sumStep_inv flt ls x st1 _ (ih st1 h1) h2

/-- C70: the summary table of a FISPACT-II file, for any number of phases. -/
theorem C70_summary (flt : Str → Option K) (data : List Str) (rows : List (SumRow K)) (s e : Nat)
    (hf : isFisII data = true) (hb : findSummaryBlock data true = .ok (s, e)) (h : readSummaryData flt data = .ok rows) :
    SummaryOf flt ((data.take e).drop (s + 1)) rows := by
  unfold readSummaryData at h
  simp only [hf, hb, ex_ok_bind, if_true, ex_bind_ok, ex_pure, Except.ok.injEq] at h
  obtain ⟨st, h, rfl⟩ := h
  exact (sumFold_inv flt _ st h).1

/-- A data line whose fields are numbers. -/
def SumLineOk (flt : Str → Option K) (l : Str) : Prop :=
  2 ≤ l.length ∧ (sepLine l = false → ∀ a ∈ [24, 35, 58, 81, 104, 127, 150], flt ((l.drop a).take 8) ≠ none)

/-- C70: the table is produced whenever every line has two characters, the data lines have numbers in their columns and the block
    does not begin with a separator. -/
theorem C70_total (flt : Str → Option K) (data : List Str) (s e : Nat)
    (hf : isFisII data = true) (hb : findSummaryBlock data true = .ok (s, e))
    (hok : ∀ l ∈ (data.take e).drop (s + 1), SumLineOk flt l)
    (h0 : ∀ l, ((data.take e).drop (s + 1)).head? = some l → sepLine l = false) :
    ∃ rows, readSummaryData flt data = .ok rows := by
  have key : ∀ ls : List Str, (∀ l ∈ ls, SumLineOk flt l) → (∀ l, ls.head? = some l → sepLine l = false) →
      ∃ st, ls.foldlM (sumStep flt) (⟨[], 0, false⟩ : SumSt K) = .ok st ∧ (ls ≠ [] → st.rows ≠ []) := by
    intro ls
    induction ls using List.reverseRecOn with
    | nil => intro _ _; exact ⟨_, rfl, by simp⟩
    | append_singleton ls x ih =>
      intro hok h0
      obtain ⟨st, h1, h2⟩ := ih (fun l hl => hok l (by simp [hl])) (by
        intro l hl; apply h0 l
        cases ls with
        | nil => simp at hl
        | cons a as => simpa using hl)
      obtain ⟨hx2, hx⟩ := hok x (by simp)
      have hc : x[1]? = some x[1] := List.getElem?_eq_getElem (by omega)
      have hstep : ∃ st', sumStep flt st x = .ok st' ∧ st'.rows ≠ [] := by
        unfold sumStep
        rw [hc]
        simp only [orErr, ex_ok_bind]
        by_cases hd : x[1] = '-'
        · rw [if_pos hd]
          have hs : sepLine x = true := (sepLine_iff hc).2 hd
          have hne : ls ≠ [] := by
            rintro rfl
            have := h0 x (by simp)
            rw [hs] at this; simp at this
          obtain ⟨r, hr⟩ : ∃ r, st.rows.getLast? = some r :=
            ⟨_, List.getLast?_eq_getLast_of_ne_nil (h2 hne)⟩
          rw [hr]
          exact ⟨_, rfl, h2 hne⟩
        · rw [if_neg hd]
          have hs : sepLine x = false := by rw [← Bool.not_eq_true, sepLine_iff hc]; exact hd
          have hv := hx hs
          have hsl : ∀ a : Nat, a ∈ [24, 35, 58, 81, 104, 127, 150] → ∃ y, flt (slice x a (a + 8)) = some y := by
            intro a ha
            have : slice x a (a + 8) = (x.drop a).take 8 := by unfold slice; rw [List.drop_take]; simp
            rw [this]
            exact Option.ne_none_iff_exists'.1 (hv a ha)
          obtain ⟨y1, v1⟩ := hsl 24 (by simp)
          obtain ⟨y2, v2⟩ := hsl 35 (by simp)
          obtain ⟨y3, v3⟩ := hsl 58 (by simp)
          obtain ⟨y4, v4⟩ := hsl 81 (by simp)
          obtain ⟨y5, v5⟩ := hsl 104 (by simp)
          obtain ⟨y6, v6⟩ := hsl 127 (by simp)
          obtain ⟨y7, v7⟩ := hsl 150 (by simp)
          norm_num at v1 v2 v3 v4 v5 v6 v7
          simp only [fltE, v1, v2, v3, v4, v5, v6, v7, orErr, ex_ok_bind, ex_pure]
          exact ⟨_, rfl, by simp⟩
      obtain ⟨st', h3, h4⟩ := hstep
      refine ⟨st', ?_, fun _ => h4⟩
      rw [List.foldlM_append, h1, ex_ok_bind, List.foldlM_cons, h3, ex_ok_bind]
      rfl
  obtain ⟨st, h1, _⟩ := key _ hok h0
  refine ⟨st.rows, ?_⟩
  unfold readSummaryData
  simp only [hf, hb, ex_ok_bind, if_true]
  unfold slice
  rw [h1]; rfl

/-- A sample of a summary: every number reads as 1. -/
def exSummary : List Str := [p!" -----Irradiation Phase-----", p!" 1", p!" 2", p!" -----Cooling Phase-----", p!" 3", p!" 4",
  p!" -----Irradiation Phase-----  ", p!" 5", p!"0 Mass"]

example : (readSummaryData (fun _ => some (1 : ℚ)) exSummary).map (fun rs => rs.map (fun r => (r.time, r.cooling))) =
    .ok [(1, false), (1, false), (2, true), (2, true), (3, true)] := by decide +kernel

/-! ### C132 -/

/-- C132 fails: a FISPACT 07 file with any line in its summary raises TypeError, so `read_fis_out` can not read it. -/
theorem C132_old_version_violated (flt : Str → Option K) (data : List Str) (s e : Nat) (hf : isFisII data = false)
    (hb : findSummaryBlock data false = .ok (s, e)) (hne : s + 1 < e) :
    readSummaryData flt data = .error .TypeError ∧ ∀ path, readLines flt path data = .error .TypeError := by
  have hlen : (slice data (s + 1) e) ≠ [] := by
    have he := ((C68_summary_block_partial data false).1 s e).1 hb
    obtain ⟨_, ⟨l, hl, _⟩, _⟩ := he
    have := (List.getElem?_eq_some_iff.1 hl).1
    intro h
    have := congrArg List.length h
    simp [slice] at this
    omega
  have : readSummaryData flt data = .error .TypeError := by
    unfold readSummaryData
    simp [hf, hb, ex_ok_bind, hlen]
  exact ⟨this, fun path => by unfold readLines; rw [this]; rfl⟩

/-- C132: only an empty FISPACT 07 summary is accepted. -/
theorem C132_old_version_partial (flt : Str → Option K) (data : List Str) (s e : Nat) (hf : isFisII data = false)
    (hb : findSummaryBlock data false = .ok (s, e)) (hne : e ≤ s + 1) : readSummaryData flt data = .ok [] := by
  have hlen : (slice data (s + 1) e) = [] := by
    unfold slice; rw [List.drop_eq_nil_iff, List.length_take]; omega
  unfold readSummaryData
  simp [hf, hb, ex_ok_bind, hlen, ex_pure]

example : readSummaryData (fun _ => some (1 : ℚ)) [p!"FISPACT VERSION 07.0/0", p!"  COOLING STEPS", p!" 1", p!"0 Mass"] =
    .error .TypeError := by decide +kernel

end Props
