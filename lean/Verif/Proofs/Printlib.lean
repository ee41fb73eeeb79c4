/- Helper lemmas for the printlib reader. -/
import Verif.Proofs.NeutUtilities
import Verif.Model.Readers
import Verif.Spec.Printlib

namespace Printlib
open Py NeutUtilities Spec.Printlib
variable {F : Type}

/-- Lines of the discrete section that carry data. -/
def isRow (line : Str) : Bool := !hasSub p!"Type" line && !hasSub p!"no spectral data" line

def isRT (line : Str) : Bool := hasSub p!"fispact run time" line
def isFD (line : Str) : Bool := hasSub p!" FD " line

/-- The table of a list of data lines, starting with a known nuclide or none. -/
inductive RowsFrom (flt : Str → Option F) : Option Str → List Str → List (Row F) → Prop
  | nil {carry} : RowsFrom flt carry [] []
  | cons {carry line rest c n e i tbl} : line[2]? = some c →
      (if c ≠ ' ' then some (replace (slice line 2 8) [' '] []) else carry) = some n →
      flt (slice line 43 54) = some e → flt (slice line 71 82) = some i →
      RowsFrom flt (some n) rest tbl →
      RowsFrom flt carry (line :: rest) (⟨n, stringCleaner (slice line 25 34), e, i⟩ :: tbl)

theorem discreteLine_ok_iff {flt : Str → Option F} {s s' : State F} {line : Str} (h : isRow line = true) :
    discreteLine flt s line = .ok s' ↔ ∃ c n e i, line[2]? = some c ∧
      (if c ≠ ' ' then some (replace (slice line 2 8) [' '] []) else s.curNuc) = some n ∧
      flt (slice line 43 54) = some e ∧ flt (slice line 71 82) = some i ∧
      s' = { s with curNuc := some n, rows := s.rows ++ [⟨n, stringCleaner (slice line 25 34), e, i⟩] } := by
  unfold discreteLine
  unfold isRow at h
  rw [if_pos h]
  cases hc : line[2]? with
  | none => simp
  | some c =>
    simp only [Option.some.injEq]
    cases hn : (if c ≠ ' ' then some (replace (slice line 2 8) [' '] []) else s.curNuc) with
    | none =>
      simp only [reduceCtorEq, false_iff]
      rintro ⟨c', n, e, i, rfl, h2, _⟩
      rw [hn] at h2; simp at h2
    | some n =>
      cases he : flt (slice line 43 54) with
      | none => simp
      | some e =>
        cases hi : flt (slice line 71 82) with
        | none => simp
        | some i =>
          simp only [Except.ok.injEq]
          constructor
          · rintro rfl; exact ⟨c, n, e, i, rfl, hn, rfl, rfl, rfl⟩
          · rintro ⟨c', n', e', i', rfl, h2, h3, h4, rfl⟩
            rw [hn] at h2
            simp at h2 h3 h4
            subst h2 h3 h4; rfl

theorem discreteLine_skip {flt : Str → Option F} {s : State F} {line : Str} (h : isRow line = false) :
    discreteLine flt s line = .ok s := by
  unfold discreteLine
  unfold isRow at h
  rw [h]; simp

/-- What the loop does inside the discrete section, up to the first run time line (or the end). -/
theorem scan_discrete {flt : Str → Option F} (tail : List Str)
    (htail : ∀ s, (scan flt s tail = .ok (some s.rows) ∧ ∃ rt rest, tail = rt :: rest ∧ isRT rt = true) ∨
      (scan flt s tail = .ok none ∧ tail = [])) :
    ∀ (data : List Str) (s : State F), s.inDiscrete = true → (∀ l ∈ data, isRT l = false) →
      (∀ tbl, RowsFrom flt s.curNuc (data.filter isRow) tbl →
        scan flt s (data ++ tail) = .ok (if tail = [] then none else some (s.rows ++ tbl))) ∧
      ((¬ ∃ tbl, RowsFrom flt s.curNuc (data.filter isRow) tbl) → ∃ e, scan flt s (data ++ tail) = .error e) := by
  intro data
  induction data with
  | nil =>
    intro s _ _
    constructor
    · intro tbl h
      cases h
      rcases htail s with ⟨h, rt, rest, hr, _⟩ | ⟨h, hr⟩
      · rw [List.nil_append, h, if_neg (by simp [hr]), List.append_nil]
      · rw [List.nil_append, h, if_pos hr]
    · intro h; exact absurd ⟨[], .nil⟩ h
  | cons l ls ih =>
    intro s hs hrt
    have hl : hasSub p!"fispact run time" l = false := hrt l (by simp)
    have hscan : scan flt s (l :: ls ++ tail) = match discreteLine flt s l with
        | .ok s' => scan flt s' (ls ++ tail)
        | .error e => .error e := by
      rw [List.cons_append, scan, hl, hs]; rfl
    have hls : ∀ l ∈ ls, isRT l = false := fun l' h => hrt l' (by simp [h])
    cases hrow : isRow l with
    | false =>
      rw [hscan, discreteLine_skip hrow]
      simp only
      rw [List.filter_cons_of_neg (by simp [hrow])]
      exact ih s hs hls
    | true =>
      rw [hscan, List.filter_cons_of_pos hrow]
      cases hd : discreteLine flt s l with
      | error e =>
        simp only
        constructor
        · intro tbl h
          cases h with
          | cons h1 h2 h3 h4 _ =>
            have := (discreteLine_ok_iff (s := s) hrow).2 ⟨_, _, _, _, h1, h2, h3, h4, rfl⟩
            rw [this] at hd; simp at hd
        · intro _; exact ⟨e, rfl⟩
      | ok s' =>
        simp only
        obtain ⟨c, n, e, i, h1, h2, h3, h4, rfl⟩ := (discreteLine_ok_iff hrow).1 hd
        obtain ⟨ihA, ihB⟩ := ih { s with curNuc := some n, rows := s.rows ++ [⟨n, stringCleaner (slice l 25 34), e, i⟩] } hs hls
        constructor
        · intro tbl h
          cases h with
          | cons g1 g2 g3 g4 g5 =>
            rw [h1] at g1; cases g1
            rw [h2] at g2; cases g2
            rw [h3] at g3; cases g3
            rw [h4] at g4; cases g4
            rw [ihA _ g5]
            simp
        · intro hno
          apply ihB
          rintro ⟨tbl, ht⟩
          exact hno ⟨_, .cons h1 h2 h3 h4 ht⟩

/-- Before the discrete section nothing is collected. -/
theorem scan_before {flt : Str → Option F} (tail : List Str) (pre : List Str) :
    ∀ s : State F, s.inDiscrete = false → (∀ l ∈ pre, isRT l = false ∧ isFD l = false) →
      ∃ a, scan flt s (pre ++ tail) = scan flt { s with inAverage := a } tail := by
  induction pre with
  | nil => intro s _ _; exact ⟨s.inAverage, rfl⟩
  | cons l ls ih =>
    intro s hs h
    have h1 : hasSub p!"fispact run time" l = false := (h l (by simp)).1
    have h2 : hasSub p!" FD " l = false := (h l (by simp)).2
    have h3 : ∀ l ∈ ls, isRT l = false ∧ isFD l = false := fun l' hl => h l' (by simp [hl])
    rw [List.cons_append, scan]
    simp only [h1, h2, hs, Bool.false_eq_true, if_false]
    rw [← hs]
    by_cases ha : s.inAverage = true
    · rw [if_pos ha]; exact ih s hs h3
    · rw [if_neg ha]
      split
      · obtain ⟨a, ha⟩ := ih { s with inAverage := true } hs h3
        exact ⟨a, ha⟩
      · exact ih s hs h3

theorem replace_space (s : Str) : replace s [' '] [] = s.filter (fun c => c ≠ ' ') := by
  rw [replace_char_eq]
  induction s with
  | nil => rfl
  | cons c cs ih =>
    rw [List.flatMap_cons, ih]
    by_cases h : c = ' '
    · simp [h]
    · simp [h]

theorem rowsFrom_spec {flt : Str → Option F} {carry : Option Str} {rows : List Str} {tbl : List (Row F)}
    (h : RowsFrom flt carry rows tbl) :
    tbl.length = rows.length ∧
    ∀ (i : Nat) (row : Row F), tbl[i]? = some row → ∃ line, rows[i]? = some line ∧
      row.particle = stringCleaner (slice line 25 34) ∧
      flt (slice line 43 54) = some row.energy ∧ flt (slice line 71 82) = some row.intensity ∧
      (NuclideAt rows i row.nuclide ∨ (carry = some row.nuclide ∧
        ∀ (k : Nat) (l : Str), k ≤ i → rows[k]? = some l → l[2]? = some ' ')) := by
  induction h with
  | nil => simp
  | @cons carry line rest c n e i tbl h1 h2 h3 h4 h5 ih =>
    obtain ⟨ihl, ihr⟩ := ih
    refine ⟨by simp [ihl], ?_⟩
    intro k row hrow
    cases k with
    | zero =>
      simp at hrow
      subst hrow
      refine ⟨line, rfl, rfl, h3, h4, ?_⟩
      by_cases hc : c = ' '
      · right
        subst hc
        simp at h2
        refine ⟨h2, ?_⟩
        intro k l hk hl
        obtain rfl : k = 0 := by omega
        simp at hl; subst hl; exact h1
      · left
        rw [if_pos hc, Option.some.injEq] at h2
        refine ⟨0, line, le_refl _, rfl, by rw [h1]; simpa using hc, ?_, ?_⟩
        · rw [← h2, replace_space]
        · intro k l h1 h2; omega
    | succ k =>
      rw [List.getElem?_cons_succ] at hrow
      obtain ⟨l', hl', hp, he, hi, hn⟩ := ihr k row hrow
      refine ⟨l', by simpa using hl', hp, he, hi, ?_⟩
      rcases hn with ⟨j, lj, hj, hlj, hne, hnuc, hafter⟩ | ⟨hcarry, hall⟩
      · left
        refine ⟨j + 1, lj, by omega, by simpa using hlj, hne, hnuc, ?_⟩
        intro k' l'' h1' h2' h3'
        cases k' with
        | zero => omega
        | succ k' => exact hafter k' l'' (by omega) (by omega) (by simpa using h3')
      · simp at hcarry
        have hall' : ∀ (k' : Nat) (l : Str), 0 < k' → k' ≤ k + 1 → (line :: rest)[k']? = some l → l[2]? = some ' ' := by
          intro k' l h1' h2' h3'
          cases k' with
          | zero => omega
          | succ k' => exact hall k' l (by omega) (by simpa using h3')
        by_cases hc : c = ' '
        · right
          subst hc
          simp at h2
          refine ⟨by rw [h2, hcarry], ?_⟩
          intro k' l hk hl
          rcases Nat.eq_zero_or_pos k' with rfl | hpos
          · simp at hl; subst hl; exact h1
          · exact hall' k' l hpos hk hl
        · left
          rw [if_pos hc, Option.some.injEq] at h2
          refine ⟨0, line, by omega, rfl, by rw [h1]; simpa using hc, ?_, hall'⟩
          rw [← hcarry, ← h2, replace_space]

theorem exists_rowsFrom {flt : Str → Option F} {rows : List Str} {carry : Option Str}
    (h : ∀ l ∈ rows, 2 < l.length ∧ (flt (slice l 43 54)).isSome ∧ (flt (slice l 71 82)).isSome)
    (hc : carry = none → ∀ l ∈ rows.head?, l[2]? ≠ some ' ') : ∃ tbl, RowsFrom flt carry rows tbl := by
  induction rows generalizing carry with
  | nil => exact ⟨[], .nil⟩
  | cons l ls ih =>
    obtain ⟨hlen, he, hi⟩ := h l (by simp)
    obtain ⟨e, he⟩ := Option.isSome_iff_exists.1 he
    obtain ⟨i, hi⟩ := Option.isSome_iff_exists.1 hi
    have h2 : l[2]? = some l[2] := List.getElem?_eq_getElem hlen
    have hn : ∃ n, (if l[2] ≠ ' ' then some (replace (slice l 2 8) [' '] []) else carry) = some n := by
      by_cases hsp : l[2] = ' '
      · cases hcar : carry with
        | some n => exact ⟨n, by simp [hsp]⟩
        | none =>
          have := hc hcar l (by simp)
          rw [h2, hsp] at this
          exact absurd rfl this
      · exact ⟨_, if_pos hsp⟩
    obtain ⟨n, hn⟩ := hn
    obtain ⟨tbl, ht⟩ := ih (carry := some n) (fun l' hl' => h l' (by simp [hl'])) (by simp)
    exact ⟨_, .cons h2 hn he hi ht⟩

theorem wellFormed_of_rowsFrom {flt : Str → Option F} {rows : List Str} {carry : Option Str} {tbl : List (Row F)}
    (h : RowsFrom flt carry rows tbl) :
    (∀ l ∈ rows, 2 < l.length ∧ (flt (slice l 43 54)).isSome ∧ (flt (slice l 71 82)).isSome) ∧
    (carry = none → ∀ l ∈ rows.head?, l[2]? ≠ some ' ') := by
  induction h with
  | nil => simp
  | @cons carry line rest c n e i tbl h1 h2 h3 h4 h5 ih =>
    constructor
    · intro l hl
      rcases List.mem_cons.1 hl with rfl | hl
      · refine ⟨?_, by simp [h3], by simp [h4]⟩
        exact (List.getElem?_eq_some_iff.1 h1).1
      · exact ih.1 l hl
    · rintro rfl l hl
      simp at hl
      subst hl
      rw [h1]
      intro hc
      simp at hc
      subst hc
      simp at h2

theorem rowsFrom_unique {flt : Str → Option F} {rows : List Str} {carry : Option Str} {t1 t2 : List (Row F)}
    (h1 : RowsFrom flt carry rows t1) (h2 : RowsFrom flt carry rows t2) : t1 = t2 := by
  induction h1 generalizing t2 with
  | nil => cases h2; rfl
  | cons a1 a2 a3 a4 _ ih =>
    cases h2 with
    | cons b1 b2 b3 b4 b5 =>
      rw [a1] at b1; cases b1
      rw [a2] at b2; cases b2
      rw [a3] at b3; cases b3
      rw [a4] at b4; cases b4
      rw [ih b5]

/-- Cut a list at the first element satisfying `p`. -/
theorem split_first {α : Type*} (p : α → Bool) (l : List α) :
    (∀ x ∈ l, p x = false) ∨ ∃ a x b, l = a ++ x :: b ∧ p x = true ∧ ∀ y ∈ a, p y = false := by
  induction l with
  | nil => left; simp
  | cons x xs ih =>
    by_cases hx : p x = true
    · exact Or.inr ⟨[], x, xs, rfl, hx, by simp⟩
    · rcases ih with h | ⟨a, y, b, h1, h2, h3⟩
      · left; intro y hy
        rcases List.mem_cons.1 hy with rfl | hy
        · simpa using hx
        · exact h y hy
      · right
        refine ⟨x :: a, y, b, by simp [h1], h2, ?_⟩
        intro z hz
        rcases List.mem_cons.1 hz with rfl | hz
        · simpa using hx
        · exact h3 z hz

/-- The part of the file that belongs to the discrete section: what follows the first ` FD ` line. -/
def afterFD : List Str → List Str
  | [] => []
  | l :: ls => if isFD l then ls else afterFD ls

theorem afterFD_none {ls : List Str} (h : ∀ l ∈ ls, isFD l = false) : afterFD ls = [] := by
  induction ls with
  | nil => rfl
  | cons l ls ih => rw [afterFD, h l (by simp)]; exact ih (fun l' h' => h l' (by simp [h']))

theorem afterFD_split {a b : List Str} {x : Str} (hx : isFD x = true) (h : ∀ l ∈ a, isFD l = false) :
    afterFD (a ++ x :: b) = b := by
  induction a with
  | nil => simp [afterFD, hx]
  | cons l ls ih => rw [List.cons_append, afterFD, h l (by simp)]; exact ih (fun l' h' => h l' (by simp [h']))

/-- Complete description of the loop on a file with `before` the lines before the first run time line. -/
theorem scan_full {flt : Str → Option F} (before tail : List Str) (hb : ∀ l ∈ before, isRT l = false)
    (htail : tail = [] ∨ ∃ rt rest, tail = rt :: rest ∧ isRT rt = true) :
    (∀ tbl, RowsFrom flt none ((afterFD before).filter isRow) tbl →
      scan flt ⟨[], none, false, false⟩ (before ++ tail) = .ok (if tail = [] then none else some tbl)) ∧
    ((¬ ∃ tbl, RowsFrom flt none ((afterFD before).filter isRow) tbl) →
      ∃ e, scan flt ⟨[], none, false, false⟩ (before ++ tail) = .error e) := by
  have htail' : ∀ s : State F, (scan flt s tail = .ok (some s.rows) ∧ ∃ rt rest, tail = rt :: rest ∧ isRT rt = true) ∨
      (scan flt s tail = .ok none ∧ tail = []) := by
    intro s
    rcases htail with rfl | ⟨rt, rest, rfl, hrt⟩
    · exact Or.inr ⟨rfl, rfl⟩
    · left
      refine ⟨?_, rt, rest, rfl, hrt⟩
      have : hasSub p!"fispact run time" rt = true := hrt
      rw [scan, this]; rfl
  rcases split_first isFD before with hno | ⟨pre, fd, data, rfl, hfd, hpre⟩
  · rw [afterFD_none hno]
    simp only [List.filter_nil]
    constructor
    · intro tbl h
      cases h
      obtain ⟨a, ha⟩ := scan_before (flt := flt) tail before ⟨[], none, false, false⟩ rfl (fun l hl => ⟨hb l hl, hno l hl⟩)
      rw [ha]
      rcases htail' ⟨[], none, false, a⟩ with ⟨h, rt, rest, rfl, _⟩ | ⟨h, rfl⟩
      · rw [h]; simp
      · rw [h]; simp
    · intro h; exact absurd ⟨[], .nil⟩ h
  · rw [afterFD_split hfd hpre]
    obtain ⟨a, ha⟩ := scan_before (flt := flt) (fd :: data ++ tail) pre ⟨[], none, false, false⟩ rfl
      (fun l hl => ⟨hb l (by simp [hl]), hpre l hl⟩)
    have hrt : hasSub p!"fispact run time" fd = false := hb fd (by simp)
    have hfd' : hasSub p!" FD " fd = true := hfd
    have hstep : scan flt ⟨[], none, false, false⟩ (pre ++ fd :: data ++ tail) =
        scan flt ⟨[], none, true, false⟩ (data ++ tail) := by
      rw [List.append_assoc, ha, List.cons_append, scan, hrt, hfd']
      rfl
    rw [hstep]
    have := scan_discrete tail htail' data ⟨[], none, true, false⟩ rfl (fun l hl => hb l (by simp [hl]))
    simpa using this

end Printlib
