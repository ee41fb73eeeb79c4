/- Properties C97 and C99 of mcnp_output_reader.py: blocks with time bins only and with energy bins only. -/
import Verif.Proofs.McnpOutput

set_option linter.unusedSectionVars false
set_option linter.unusedSimpArgs false

namespace Props
open Py NeutUtilities McnpOutput
variable {F : Type}

/-! ### C97: time bins -/

/-- The lines of a block with time bins, its labels and its (result, error) pairs. The words of a line are joined by single blanks
    to decide what it is: label lines contain "time", data lines have more than four characters, other lines are ignored. -/
inductive TimeBlock (flt : Str → Option F) : List Str → List Str → List (F × F) → Prop
  | nil : TimeBlock flt [] [] []
  | label {l w ts ls times ps} : Spec.IsWords l (w :: ts) → p!"time" <:+: join p!" " (w :: ts) → TimeBlock flt ls times ps →
      TimeBlock flt (l :: ls) (ts ++ times) ps
  | data {l ws qs ls times ps} : Spec.IsWords l ws → ¬ p!"time" <:+: join p!" " ws → 4 < (join p!" " ws).length →
      List.Forall₂ (fun w x => flt w = some x) ws (qs.flatMap (fun q : F × F => [q.1, q.2])) → TimeBlock flt ls times ps →
      TimeBlock flt (l :: ls) times (qs ++ ps)
  | short {l ws ls times ps} : Spec.IsWords l ws → ¬ p!"time" <:+: join p!" " ws → (join p!" " ws).length ≤ 4 →
      TimeBlock flt ls times ps → TimeBlock flt (l :: ls) times ps

private theorem evens_pairs (qs : List (F × F)) : evens (qs.flatMap (fun q => [q.1, q.2])) = qs.map (·.1) := by
  induction qs with
  | nil => rfl
  | cons q qs ih =>
    have : (q :: qs).flatMap (fun q : F × F => [q.1, q.2]) = q.1 :: q.2 :: qs.flatMap (fun q => [q.1, q.2]) := rfl
    rw [this, evens, ih]; rfl

private theorem evens_cons_pairs (x : F) (qs : List (F × F)) :
    evens (x :: qs.flatMap (fun q => [q.1, q.2])) = x :: qs.map (·.2) := by
  induction qs generalizing x with
  | nil => rfl
  | cons q qs ih =>
    have : (q :: qs).flatMap (fun q : F × F => [q.1, q.2]) = q.1 :: q.2 :: qs.flatMap (fun q => [q.1, q.2]) := rfl
    rw [this, evens, ih]; rfl

private theorem odds_pairs (qs : List (F × F)) : odds (qs.flatMap (fun q => [q.1, q.2])) = qs.map (·.2) := by
  cases qs with
  | nil => rfl
  | cons q qs =>
    have : (q :: qs).flatMap (fun q : F × F => [q.1, q.2]) = q.1 :: q.2 :: qs.flatMap (fun q => [q.1, q.2]) := rfl
    rw [odds, this, List.drop_succ_cons, List.drop_zero, evens_cons_pairs]; rfl

private theorem floats_ok {flt : Str → Option F} {ws : List Str} {xs : List F} (h : List.Forall₂ (fun w x => flt w = some x) ws xs) :
    ws.mapM (pyFloat flt) = .ok xs := by
  rw [mapM_except_ok_iff]
  exact h.imp (fun _ _ h => orErr_ok_iff.2 h)

private theorem clean_words {l : Str} {ws : List Str} (h : Spec.IsWords l ws) : stringCleaner l = join p!" " ws := by
  rw [stringCleaner_eq, isWords_iff.1 h]

private theorem run_block {flt : Str → Option F} {ls times : List Str} {ps : List (F × F)} (h : TimeBlock flt ls times ps)
    (st : List Str × List F × List F) :
    ls.foldlM (timeStep flt) st = .ok (st.1 ++ times, st.2.1 ++ ps.map (·.1), st.2.2 ++ ps.map (·.2)) := by
  induction h generalizing st with
  | nil => simp [ex_pure]
  | @label l w ts ls times ps hw ht _ ih =>
    have h1 : timeStep flt st l = .ok (st.1 ++ ts, st.2) := by
      unfold timeStep
      have : (splitOn ' ' (stringCleaner l)).drop 1 = ts := by
        rw [splitOn_stringCleaner_drop l 1 (by decide), isWords_iff.1 hw]; rfl
      simp only [this]
      rw [clean_words hw, if_pos (hasSub_iff.2 ht)]
    rw [List.foldlM_cons, h1, ex_ok_bind, ih]
    simp
  | @data l ws qs ls times ps hw ht hlen hq _ ih =>
    have h1 : timeStep flt st l = .ok (st.1, st.2.1 ++ qs.map (·.1), st.2.2 ++ qs.map (·.2)) := by
      have hne : splitWs l ≠ [] := by
        rw [isWords_iff.1 hw]; rintro rfl; simp [join] at hlen
      have : splitOn ' ' (stringCleaner l) = ws := by rw [splitOn_stringCleaner hne, isWords_iff.1 hw]
      unfold timeStep
      simp only [this, floats_ok hq, ex_ok_bind, evens_pairs, odds_pairs, ex_pure]
      rw [clean_words hw, if_neg (by rw [hasSub_iff]; exact ht), if_pos hlen]
    rw [List.foldlM_cons, h1, ex_ok_bind, ih]
    simp
  | @short l ws ls times ps hw ht hlen _ ih =>
    have h1 : timeStep flt st l = .ok st := by
      unfold timeStep
      simp only
      rw [clean_words hw, if_neg (by rw [hasSub_iff]; exact ht), if_neg (by omega)]
    rw [List.foldlM_cons, h1, ex_ok_bind, ih]

/-- Results and errors are the paired entries of the data lines in order; the labels are listed in order. -/
theorem C97_pairs {flt : Str → Option F} {lines times : List Str} {ps : List (F × F)} (h : TimeBlock flt lines times ps) :
    processTimeBinOnly flt lines = .ok (times, ps.map (·.1), ps.map (·.2)) := by
  have := run_block h ([], [], [])
  simpa [processTimeBinOnly] using this

/-- Only a data line with a word that is no number makes the function fail, and then with ValueError. -/
theorem C97_errors {flt : Str → Option F} {lines : List Str} {e : Err} (h : processTimeBinOnly flt lines = .error e) :
    e = .ValueError ∧ ∃ l ∈ lines, ∃ ws, Spec.IsWords l ws ∧ ¬ p!"time" <:+: join p!" " ws ∧ 4 < (join p!" " ws).length ∧
      ∃ w ∈ ws, flt w = none := by
  unfold processTimeBinOnly at h
  generalize (([], [], []) : List Str × List F × List F) = st at h
  induction lines generalizing st with
  | nil => simp [ex_pure] at h
  | cons l ls ih =>
    rw [List.foldlM_cons, ex_bind_err] at h
    rcases h with h | ⟨st', _, h⟩
    · unfold timeStep at h
      simp only at h
      have hw := isWords_splitWs l
      rw [clean_words hw] at h
      split at h
      · simp at h
      · rename_i h1
        split at h
        · rename_i h2
          rw [ex_bind_err] at h
          simp only [ex_pure, reduceCtorEq, and_false, exists_false, or_false] at h
          obtain ⟨w, hmem, he⟩ := mapM_except_err h
          have h3 := orErr_err_iff.1 he
          have hne : splitWs l ≠ [] := by intro h0; rw [h0] at h2; simp [join] at h2
          have hs := splitOn_stringCleaner hne
          rw [stringCleaner_eq] at hs
          rw [hs] at hmem
          exact ⟨h3.2, l, by simp, splitWs l, hw, by rwa [← hasSub_iff], h2, w, hmem, h3.1⟩
        · simp at h
    · obtain ⟨h1, x, hx, h2⟩ := ih st' h
      exact ⟨h1, x, by simp [hx], h2⟩

/-- A toy parser of numbers, for the examples. -/
private def toy (s : Str) : Option Nat := pyNat s

example : processTimeBinOnly toy [p!"  time:  1.0   2.0 ", p!"   10 20  30 40", p!" ", p!"  time:  total", p!"  100 200"] =
    .ok ([p!"1.0", p!"2.0", p!"total"], [10, 30, 100], [20, 40, 200]) := by decide +kernel

/-! ### C99: energy bins -/

/-- A line that opens the block of number `n`: `name`, white space, the digits of the number. -/
def BlockHead (name : Str) (n : Nat) (l : Str) : Prop :=
  ∃ sp ds rest, strip l = name ++ sp ++ ds ++ rest ∧ sp ≠ [] ∧ Spec.Blank sp ∧ ds ≠ [] ∧ (∀ c ∈ ds, c.isDigit = true) ∧
    (∀ c ∈ rest.head?, c.isDigit = false) ∧ pyNat ds = some n

/-- What a line inside a block says. -/
inductive Ev (F : Type)
  | row (energy result error : F)
  | total (result error : F)
  | other

/-- A data line has three words, the first beginning with a digit; a total line is the word "total" and two words, a line which
    begins otherwise and does not have three words says nothing. -/
def IsEv (flt : Str → Option F) (l : Str) : Ev F → Prop
  | .row e r u => ∃ a b c, Spec.IsWords l [a, b, c] ∧ (a.headD ' ').isDigit = true ∧ flt a = some e ∧ flt b = some r ∧ flt c = some u
  | .total r u => ∃ w a b, Spec.IsWords l [w, a, b] ∧ lower w = p!"total" ∧ ¬ p!"total" <:+: lower a ∧ ¬ p!"total" <:+: lower b ∧
      flt (lower a) = some r ∧ flt (lower b) = some u
  | .other => ¬ p!"total" <+: lower (strip l) ∧ ∀ a b c, Spec.IsWords l [a, b, c] → (a.headD ' ').isDigit = false

/-- A block: number, opening line, body lines with their meaning. -/
structure Blk (F : Type) where
  n : Nat
  head : Str
  body : List (Str × Ev F)

/-- The block is well formed for readers that look for `name`. -/
def Blk.WF (flt : Str → Option F) (name : Str) (b : Blk F) : Prop :=
  b.n ≠ 0 ∧ BlockHead name b.n b.head ∧ ∀ e ∈ b.body, (∀ m, ¬ BlockHead name m e.1) ∧ IsEv flt e.1 e.2

/-- Its lines. -/
def Blk.lines (b : Blk F) : List Str := b.head :: b.body.map (·.1)

/-- Its rows. -/
def Blk.rows (b : Blk F) : List (F × F × F) :=
  b.body.filterMap (fun e => match e.2 with | .row e r u => some (e, r, u) | _ => none)

/-- Its totals. -/
def Blk.totals (b : Blk F) : List (F × F) :=
  b.body.filterMap (fun e => match e.2 with | .total r u => some (r, u) | _ => none)

theorem matchNum_iff (name l : Str) (n : Nat) : matchNum name (strip l) = some n ↔ BlockHead name n l := by
  unfold matchNum BlockHead
  by_cases hs : startsWith (strip l) name = true
  · rw [if_pos hs]
    rw [startsWith_iff] at hs
    obtain ⟨r, hr⟩ := hs
    simp only [← hr, List.drop_left]
    constructor
    · intro h
      split at h
      · simp at h
      · rename_i h1
        split at h
        · simp at h
        · rename_i h2
          refine ⟨r.takeWhile isSpace, (r.dropWhile isSpace).takeWhile isDigit, (r.dropWhile isSpace).dropWhile isDigit, ?_,
            by simpa using h1, ?_, by simpa using h2, ?_, ?_, h⟩
          · simp only [List.append_assoc, List.takeWhile_append_dropWhile]
          · intro c hc; exact List.mem_takeWhile_imp hc
          · intro c hc; exact List.mem_takeWhile_imp hc
          · intro c hc
            have hne : (r.dropWhile isSpace).dropWhile isDigit ≠ [] := by rintro h0; rw [h0] at hc; simp at hc
            have := List.head_dropWhile_not isDigit hne
            rw [List.head?_eq_some_head hne] at hc
            simp only [Option.mem_def, Option.some.injEq] at hc
            rw [hc] at this
            simpa [isDigit] using this
    · rintro ⟨sp, ds, rest, h1, h2, h3, h4, h5, h6, h7⟩
      have hr' : r = sp ++ (ds ++ rest) := by
        have : name ++ r = name ++ (sp ++ (ds ++ rest)) := by rw [h1]; simp
        exact List.append_cancel_left this
      obtain ⟨d, ds', rfl⟩ := List.exists_cons_of_ne_nil h4
      have hd : isSpace d = false := isDigit_not_space (h5 d (by simp))
      have e1 : r.takeWhile isSpace = sp := by
        rw [hr', List.takeWhile_append_of_pos h3]
        simp [hd]
      have e2 : r.dropWhile isSpace = d :: ds' ++ rest := by
        rw [hr', List.dropWhile_append_of_pos h3]
        simp [hd]
      have e3 : (d :: ds' ++ rest).takeWhile isDigit = d :: ds' := by
        rw [List.takeWhile_append_of_pos (p := isDigit) (fun c hc => h5 c hc)]
        cases rest with
        | nil => simp
        | cons c cs => simp [isDigit, h6 c (by simp)]
      rw [e1, e2, e3, if_neg (by simpa using h2), if_neg (by simp), h7]
  · rw [if_neg hs]
    simp only [reduceCtorEq, false_iff]
    rintro ⟨sp, ds, rest, h1, _⟩
    apply hs
    rw [startsWith_iff, h1]
    simp

/-- The effect of one event on the tables. -/
private def apply (st : Dict Nat (List (F × F × F)) × Dict Nat (F × F)) (e : Nat × Ev F) :
    Dict Nat (List (F × F × F)) × Dict Nat (F × F) :=
  match e.2 with
  | .row a b c => (st.1.set e.1 ((st.1.get e.1).getD [] ++ [(a, b, c)]), st.2)
  | .total a b => (st.1, st.2.set e.1 (a, b))
  | .other => st

private theorem words_total {l w a b : Str} (h : Spec.IsWords l [w, a, b]) (hw : lower w = p!"total")
    (ha : ¬ p!"total" <:+: lower a) (hb : ¬ p!"total" <:+: lower b) :
    p!"total" <+: lower (strip l) ∧ splitWs (replace (lower (strip l)) p!"total" []) = [lower a, lower b] := by
  have hs : splitWs (lower (strip l)) = [p!"total", lower a, lower b] := by
    rw [splitWs_lower, splitWs_strip, isWords_iff.1 h]
    simp [hw]
  have hne : strip l ≠ [] := by
    intro h0; rw [h0] at hs; simp [lower, splitWs, splitP] at hs
  obtain ⟨c, cs, hc⟩ := List.exists_cons_of_ne_nil hne
  have hcs : isSpace c = false := by
    obtain ⟨x, hx, _⟩ := rstrip_decomp (lstrip l)
    have hx' : lstrip l = strip l ++ x := hx
    rw [hc] at hx'
    exact lstrip_head hx'
  have hiw := isWords_splitWs (lower (strip l))
  rw [hs] at hiw
  generalize hS : lower (strip l) = S at hiw ⊢
  generalize hgen : ([p!"total", lower a, lower b] : List Str) = W at hiw
  cases hiw with
  | blank => simp at hgen
  | @word pre w' rest ws hpre hw' hrest hws =>
    have heq := hS
    simp only [List.cons.injEq] at hgen
    obtain ⟨rfl, rfl⟩ := hgen
    have hpre0 : pre = [] := by
      cases pre with
      | nil => rfl
      | cons p ps =>
        exfalso
        rw [hc] at heq
        simp only [lower, List.map_cons, List.cons_append, List.cons.injEq] at heq
        have := hpre p (by simp)
        rw [← heq.1, isSpace_toLower, hcs] at this
        simp at this
    subst hpre0
    refine ⟨⟨rest, by simp⟩, ?_⟩
    rw [List.nil_append, replace_of_ne_nil (by simp), replaceAux_hit (by simp), List.nil_append]
    have hno : ¬ p!"total" <:+: rest := by
      intro hinf
      obtain ⟨x, y, hxy⟩ := hinf
      have hrw : splitWs rest = [lower a, lower b] := splitWs_of_isWords hws
      -- the words of `rest` contain every maximal run, so "total" lies inside one of them
      have : ∃ v ∈ splitWs rest, p!"total" <:+: v := by
        rw [← hxy]
        exact infix_word x y (by simp) (by decide)
      obtain ⟨v, hv, hin⟩ := this
      rw [hrw] at hv
      simp only [List.mem_cons, List.not_mem_nil, or_false] at hv
      rcases hv with rfl | rfl
      · exact ha hin
      · exact hb hin
    rw [replaceAux_absent hno]
    exact splitWs_of_isWords hws

private theorem engLine_ev {flt : Str → Option F} {l : Str} {ev : Ev F} (h : IsEv flt l ev) (st : EngSt F) (n : Nat) :
    engLine flt st n (strip l) = .ok ⟨st.cur, (apply (st.data, st.totals) (n, ev)).1, (apply (st.data, st.totals) (n, ev)).2⟩ := by
  cases ev with
  | row e r u =>
    obtain ⟨a, b, c, hw, hd, ha, hb, hc⟩ := h
    have hs : splitWs (strip l) = [a, b, c] := by rw [splitWs_strip, isWords_iff.1 hw]
    have hnt : ¬ startsWith (lower (strip l)) p!"total" = true := by
      intro ht
      rw [startsWith_iff] at ht
      obtain ⟨t, ht⟩ := ht
      have h1 : splitWs (lower (strip l)) = [lower a, lower b, lower c] := by rw [splitWs_lower, hs]; rfl
      have h2 : (splitWs (lower (strip l))).headD [] = (p!"total" ++ t).takeWhile (fun d => !isSpace d) := by
        rw [← ht]; exact McnpInput.splitWs_headD (by decide)
      rw [h1] at h2
      have h3 : (lower a).head? = some 't' := by
        have : lower a = (p!"total" ++ t).takeWhile (fun d => !isSpace d) := h2
        rw [this]
        rfl
      cases a with
      | nil => simp [lower] at h3
      | cons x xs =>
        simp only [lower, List.map_cons, List.head?_cons, Option.some.injEq] at h3
        have hx : x.isDigit = true := by simpa using hd
        rw [digit_toLower_self hx] at h3
        subst h3
        exact absurd hx (by decide)
    unfold engLine
    rw [if_neg hnt, hs]
    simp only [hd, if_true, pyFloat, ha, hb, hc, orErr, ex_ok_bind, ex_pure]
    rfl
  | total r u =>
    obtain ⟨w, a, b, hw, hwt, ha, hb, hfa, hfb⟩ := h
    obtain ⟨h1, h2⟩ := words_total hw hwt ha hb
    unfold engLine
    rw [if_pos (startsWith_iff.2 h1), h2]
    simp only [pyFloat, hfa, hfb, orErr, ex_ok_bind, ex_pure]
    rfl
  | other =>
    obtain ⟨h1, h2⟩ := h
    unfold engLine
    rw [if_neg (by rw [startsWith_iff]; exact h1)]
    rw [splitWs_strip]
    split
    · rename_i a b c hs
      rw [if_neg (by rw [h2 a b c (isWords_iff.2 hs)]; simp)]
      rfl
    · rfl

/-- What the two readers have in common. -/
private structure Reader (flt : Str → Option F) (name : Str) (step : EngSt F → Str → Except Err (EngSt F)) : Prop where
  head : ∀ st l n, BlockHead name n l → n ≠ 0 → step st l = .ok { st with cur := some n }
  skip : ∀ st l, (∀ n, ¬ BlockHead name n l) → st.cur = none → step st l = .ok st
  line : ∀ st l n, (∀ n, ¬ BlockHead name n l) → st.cur = some n → n ≠ 0 → step st l = engLine flt st n (strip l)

private theorem matchNum_none {name l : Str} (h : ∀ n, ¬ BlockHead name n l) : matchNum name (strip l) = none := by
  cases hm : matchNum name (strip l) with
  | none => rfl
  | some n => exact absurd ((matchNum_iff name l n).1 hm) (h n)

private theorem surf_reader (flt : Str → Option F) : Reader flt p!"surface" (surfEngStep flt) where
  head := by
    intro st l n h _
    unfold surfEngStep
    simp only [(matchNum_iff _ l n).2 h]
  skip := by
    intro st l h hc
    unfold surfEngStep
    simp only [matchNum_none h, hc]
  line := by
    intro st l n h hc hn
    unfold surfEngStep
    obtain ⟨m, rfl⟩ : ∃ m, n = m + 1 := ⟨n - 1, by omega⟩
    simp only [matchNum_none h, hc]

private theorem head_other {flt : Str → Option F} {l : Str} {n : Nat} (h : BlockHead p!"cell" n l) : IsEv flt l .other := by
  obtain ⟨sp, ds, rest, h1, h2, h3, _⟩ := h
  constructor
  · rw [h1]
    rintro ⟨t, ht⟩
    simp [lower] at ht
  · intro a b c hw
    have h4 : splitWs (strip l) = [a, b, c] := by rw [splitWs_strip, isWords_iff.1 hw]
    have h5 : (splitWs (strip l)).headD [] = (p!"cell" ++ sp ++ ds ++ rest).takeWhile (fun d => !isSpace d) := by
      rw [h1]; exact McnpInput.splitWs_headD (by decide)
    rw [h4] at h5
    have : a = (p!"cell" ++ sp ++ ds ++ rest).takeWhile (fun d => !isSpace d) := h5
    rw [this]
    rfl

private theorem cell_reader (flt : Str → Option F) : Reader flt p!"cell" (cellEngStep flt) where
  head := by
    intro st l n h hn
    obtain ⟨m, rfl⟩ : ∃ m, n = m + 1 := ⟨n - 1, by omega⟩
    unfold cellEngStep
    simp only [(matchNum_iff _ l _).2 h]
    rw [engLine_ev (head_other h)]
    rfl
  skip := by
    intro st l h hc
    unfold cellEngStep
    simp only [matchNum_none h, hc]
  line := by
    intro st l n h hc hn
    obtain ⟨m, rfl⟩ : ∃ m, n = m + 1 := ⟨n - 1, by omega⟩
    unfold cellEngStep
    simp only [matchNum_none h, hc]

private def evs (blocks : List (Blk F)) : List (Nat × Ev F) := blocks.flatMap (fun b => b.body.map (fun e => (b.n, e.2)))

private theorem run_body {flt : Str → Option F} {name : Str} {step : EngSt F → Str → Except Err (EngSt F)} (R : Reader flt name step)
    {n : Nat} (hn : n ≠ 0) {body : List (Str × Ev F)} (hb : ∀ e ∈ body, (∀ m, ¬ BlockHead name m e.1) ∧ IsEv flt e.1 e.2)
    (p : Dict Nat (List (F × F × F)) × Dict Nat (F × F)) :
    (body.map (·.1)).foldlM step ⟨some n, p.1, p.2⟩ =
      .ok ⟨some n, ((body.map (fun e => (n, e.2))).foldl apply p).1, ((body.map (fun e => (n, e.2))).foldl apply p).2⟩ := by
  induction body generalizing p with
  | nil => rfl
  | cons e body ih =>
    obtain ⟨h1, h2⟩ := hb e (by simp)
    rw [List.map_cons, List.foldlM_cons, R.line _ e.1 n h1 rfl hn, engLine_ev h2, ex_ok_bind, List.map_cons, List.foldl_cons]
    exact ih (fun x hx => hb x (by simp [hx])) _

private theorem run_blocks {flt : Str → Option F} {name : Str} {step : EngSt F → Str → Except Err (EngSt F)} (R : Reader flt name step)
    {blocks : List (Blk F)} (hb : ∀ b ∈ blocks, b.WF flt name) (cur : Option Nat)
    (p : Dict Nat (List (F × F × F)) × Dict Nat (F × F)) :
    ∃ cur', (blocks.flatMap Blk.lines).foldlM step ⟨cur, p.1, p.2⟩ =
      .ok ⟨cur', ((evs blocks).foldl apply p).1, ((evs blocks).foldl apply p).2⟩ := by
  induction blocks generalizing cur p with
  | nil => exact ⟨cur, rfl⟩
  | cons b bs ih =>
    obtain ⟨h0, h1, h2⟩ := hb b (by simp)
    obtain ⟨cur', hc⟩ := ih (fun x hx => hb x (by simp [hx])) (some b.n) ((b.body.map (fun e => (b.n, e.2))).foldl apply p)
    refine ⟨cur', ?_⟩
    rw [List.flatMap_cons, List.foldlM_append]
    have : b.lines.foldlM step ⟨cur, p.1, p.2⟩ = .ok ⟨some b.n, ((b.body.map (fun e => (b.n, e.2))).foldl apply p).1,
        ((b.body.map (fun e => (b.n, e.2))).foldl apply p).2⟩ := by
      unfold Blk.lines
      rw [List.foldlM_cons, R.head _ _ _ h1 h0, ex_ok_bind]
      exact run_body R h0 h2 p
    rw [this, ex_ok_bind, hc]
    simp [evs]

private theorem run_pre {flt : Str → Option F} {name : Str} {step : EngSt F → Str → Except Err (EngSt F)} (R : Reader flt name step)
    {pre : List Str} (hp : ∀ l ∈ pre, ∀ n, ¬ BlockHead name n l) (st : EngSt F) (hc : st.cur = none) : pre.foldlM step st = .ok st := by
  induction pre with
  | nil => rfl
  | cons l ls ih =>
    rw [List.foldlM_cons, R.skip st l (hp l (by simp)) hc, ex_ok_bind, ih (fun x hx => hp x (by simp [hx]))]

private theorem run_all {flt : Str → Option F} {name : Str} {step : EngSt F → Str → Except Err (EngSt F)} (R : Reader flt name step)
    {pre : List Str} {blocks : List (Blk F)} (hp : ∀ l ∈ pre, ∀ n, ¬ BlockHead name n l) (hb : ∀ b ∈ blocks, b.WF flt name) :
    (do let st ← (pre ++ blocks.flatMap Blk.lines).foldlM step ⟨none, [], []⟩; pure (st.data, st.totals)) =
      (.ok ((evs blocks).foldl apply ([], [])) : Except Err (Dict Nat (List (F × F × F)) × Dict Nat (F × F))) := by
  obtain ⟨cur', hc⟩ := run_blocks R hb none ([], [])
  rw [List.foldlM_append, run_pre R hp _ rfl, ex_ok_bind, hc]
  rfl

private theorem apply_data (es : List (Nat × Ev F)) (p : Dict Nat (List (F × F × F)) × Dict Nat (F × F)) (n : Nat) :
    ((es.foldl apply p).1.get n).getD [] = (p.1.get n).getD [] ++
      es.filterMap (fun e => match e.2 with | .row a b c => if e.1 = n then some (a, b, c) else none | _ => none) := by
  induction es generalizing p with
  | nil => simp
  | cons e es ih =>
    rw [List.foldl_cons, ih, List.filterMap_cons]
    obtain ⟨m, ev⟩ := e
    cases ev with
    | row a b c =>
      by_cases h : m = n
      · subst h
        simp [apply, Dict.get_set_self]
      · simp [apply, Dict.get_set_ne _ _ (Ne.symm h), h]
    | total a b => simp [apply]
    | other => simp [apply]

private theorem apply_keys (es : List (Nat × Ev F)) (p : Dict Nat (List (F × F × F)) × Dict Nat (F × F)) (n : Nat) :
    n ∈ (es.foldl apply p).1.keys ↔ n ∈ p.1.keys ∨ ∃ a b c, (n, Ev.row a b c) ∈ es := by
  induction es generalizing p with
  | nil => simp
  | cons e es ih =>
    rw [List.foldl_cons, ih]
    obtain ⟨m, ev⟩ := e
    cases ev with
    | row a b c =>
      simp only [apply, Dict.mem_keys_set, List.mem_cons, Prod.mk.injEq, Ev.row.injEq]
      constructor
      · rintro ((rfl | h) | ⟨x, y, z, h⟩)
        · exact Or.inr ⟨a, b, c, Or.inl ⟨rfl, rfl, rfl, rfl⟩⟩
        · exact Or.inl h
        · exact Or.inr ⟨x, y, z, Or.inr h⟩
      · rintro (h | ⟨x, y, z, ⟨rfl, _⟩ | h⟩)
        · exact Or.inl (Or.inr h)
        · exact Or.inl (Or.inl rfl)
        · exact Or.inr ⟨x, y, z, h⟩
    | total a b => simp [apply]
    | other => simp [apply]

private theorem apply_totals (es : List (Nat × Ev F)) (p : Dict Nat (List (F × F × F)) × Dict Nat (F × F)) (n : Nat) :
    (es.foldl apply p).2.get n =
      ((es.filterMap (fun e => match e.2 with | .total a b => if e.1 = n then some (a, b) else none | _ => none)).getLast?).or
        (p.2.get n) := by
  induction es generalizing p with
  | nil => simp
  | cons e es ih =>
    rw [List.foldl_cons, ih, List.filterMap_cons]
    obtain ⟨m, ev⟩ := e
    cases ev with
    | row a b c => simp [apply]
    | other => simp [apply]
    | total a b =>
      by_cases h : m = n
      · subst h
        simp only [apply, Dict.get_set_self, if_true, List.getLast?_cons]
        cases List.getLast? _ <;> simp
      · simp [apply, Dict.get_set_ne _ _ (Ne.symm h), h]

private theorem rows_evs (blocks : List (Blk F)) (n : Nat) :
    (evs blocks).filterMap (fun e => match e.2 with | .row a b c => if e.1 = n then some (a, b, c) else none | _ => none) =
      (blocks.filter (fun b => b.n = n)).flatMap Blk.rows := by
  unfold evs
  induction blocks with
  | nil => rfl
  | cons b bs ih =>
    rw [List.flatMap_cons, List.filterMap_append, ih, List.filterMap_map]
    by_cases h : b.n = n
    · rw [List.filter_cons_of_pos (by simpa using h), List.flatMap_cons]
      congr 1
      unfold Blk.rows
      apply List.filterMap_congr
      intro e _
      cases he : e.2 <;> simp [h, he]
    · rw [List.filter_cons_of_neg (by simpa using h)]
      have : List.filterMap ((fun e : Nat × Ev F => match e.2 with
          | .row a b c => if e.1 = n then some (a, b, c) else none | _ => none) ∘ fun e : Str × Ev F => (b.n, e.2)) b.body = [] := by
        rw [List.filterMap_eq_nil_iff]
        intro e _
        cases he : e.2 <;> simp [h, he]
      rw [this, List.nil_append]

private theorem totals_evs (blocks : List (Blk F)) (n : Nat) :
    (evs blocks).filterMap (fun e => match e.2 with | .total a b => if e.1 = n then some (a, b) else none | _ => none) =
      (blocks.filter (fun b => b.n = n)).flatMap Blk.totals := by
  unfold evs
  induction blocks with
  | nil => rfl
  | cons b bs ih =>
    rw [List.flatMap_cons, List.filterMap_append, ih, List.filterMap_map]
    by_cases h : b.n = n
    · rw [List.filter_cons_of_pos (by simpa using h), List.flatMap_cons]
      congr 1
      unfold Blk.totals
      apply List.filterMap_congr
      intro e _
      cases he : e.2 <;> simp [h, he]
    · rw [List.filter_cons_of_neg (by simpa using h)]
      have : List.filterMap ((fun e : Nat × Ev F => match e.2 with
          | .total a b => if e.1 = n then some (a, b) else none | _ => none) ∘ fun e : Str × Ev F => (b.n, e.2)) b.body = [] := by
        rw [List.filterMap_eq_nil_iff]
        intro e _
        cases he : e.2 <;> simp [h, he]
      rw [this, List.nil_append]

/-- The tables agree with the blocks: for every number the rows of its own blocks in order, its last total, nothing else. -/
def BinsAgree (blocks : List (Blk F)) (r : Dict Nat (List (F × F × F)) × Dict Nat (F × F)) : Prop :=
  ∀ n, (r.1.get n).getD [] = (blocks.filter (fun b => b.n = n)).flatMap Blk.rows ∧
    (n ∈ r.1.keys ↔ (blocks.filter (fun b => b.n = n)).flatMap Blk.rows ≠ []) ∧
    r.2.get n = ((blocks.filter (fun b => b.n = n)).flatMap Blk.totals).getLast?

private theorem agrees_evs (blocks : List (Blk F)) : BinsAgree blocks ((evs blocks).foldl apply ([], [])) := by
  intro n
  refine ⟨?_, ?_, ?_⟩
  · rw [apply_data, rows_evs]; simp [Dict.get]
  · rw [apply_keys, ← rows_evs, ne_eq, List.filterMap_eq_nil_iff]
    simp only [Dict.keys, List.map_nil, List.not_mem_nil, false_or]
    constructor
    · rintro ⟨a, b, c, h⟩ h2
      have := h2 _ h
      simp at this
    · intro h
      push Not at h
      obtain ⟨⟨m, ev⟩, hm, hne⟩ := h
      cases ev with
      | row a b c =>
        by_cases hmn : m = n
        · subst hmn; exact ⟨a, b, c, hm⟩
        · simp [hmn] at hne
      | total a b => simp at hne
      | other => simp at hne
  · rw [apply_totals, totals_evs]; simp [Dict.get]

/-- Cell tallies with energy bins only. -/
theorem C99_cells {flt : Str → Option F} {pre : List Str} {blocks : List (Blk F)}
    (hp : ∀ l ∈ pre, ∀ n, ¬ BlockHead p!"cell" n l) (hb : ∀ b ∈ blocks, b.WF flt p!"cell") :
    ∃ r, readEnergyBinOnlyCellTally flt (pre ++ blocks.flatMap Blk.lines) = .ok r ∧ BinsAgree blocks r :=
  ⟨_, run_all (cell_reader flt) hp hb, agrees_evs blocks⟩

/-- Surface tallies with energy bins only. -/
theorem C99_surfaces {flt : Str → Option F} {pre : List Str} {blocks : List (Blk F)}
    (hp : ∀ l ∈ pre, ∀ n, ¬ BlockHead p!"surface" n l) (hb : ∀ b ∈ blocks, b.WF flt p!"surface") :
    ∃ r, processEnergyBinnedSurfaceTally flt (pre ++ blocks.flatMap Blk.lines) = .ok r ∧ BinsAgree blocks r :=
  ⟨_, run_all (surf_reader flt) hp hb, agrees_evs blocks⟩

/-- Blocks with the same numbers and contents give identical tables in both readers. -/
theorem C99_same {flt : Str → Option F} {pre pre' : List Str} {cells surfs : List (Blk F)}
    (hp : ∀ l ∈ pre, ∀ n, ¬ BlockHead p!"cell" n l) (hp' : ∀ l ∈ pre', ∀ n, ¬ BlockHead p!"surface" n l)
    (hb : ∀ b ∈ cells, b.WF flt p!"cell") (hb' : ∀ b ∈ surfs, b.WF flt p!"surface")
    (h : List.Forall₂ (fun c s : Blk F => c.n = s.n ∧ c.body.map (·.2) = s.body.map (·.2)) cells surfs) :
    readEnergyBinOnlyCellTally flt (pre ++ cells.flatMap Blk.lines) =
      processEnergyBinnedSurfaceTally flt (pre' ++ surfs.flatMap Blk.lines) := by
  have he : evs cells = evs surfs := by
    unfold evs
    clear hb hb'
    induction h with
    | nil => rfl
    | @cons c s cs ss h1 _ ih =>
      rw [List.flatMap_cons, List.flatMap_cons, ih]
      congr 1
      have e1 : ∀ b : Blk F, b.body.map (fun e => (b.n, e.2)) = (b.body.map (·.2)).map (fun e => (b.n, e)) := by
        intro b; rw [List.map_map]; rfl
      rw [e1, e1, h1.1, h1.2]
  have h1 := run_all (cell_reader flt) hp hb
  have h2 := run_all (surf_reader flt) hp' hb'
  rw [he] at h1
  exact h1.trans h2.symm

example : readEnergyBinOnlyCellTally toy [p!"x", p!" cell  1 ", p!"      energy   ", p!"    1   10 5", p!"    2   20 6",
    p!"      total      30 7", p!" cell  12", p!"      energy", p!"    1   11 5"] =
    .ok ([(1, [(1, 10, 5), (2, 20, 6)]), (12, [(1, 11, 5)])], [(1, (30, 7))]) := rfl
example : BlockHead p!"cell" 12 p!" cell  12  " :=
  ⟨p!"  ", p!"12", [], by decide +kernel, by decide, by unfold Spec.Blank; decide, by decide, by decide, by decide, by decide +kernel⟩
example : IsEv toy p!"    1   10 5" (.row 1 10 5) :=
  ⟨p!"1", p!"10", p!"5", isWords_iff.2 (by decide +kernel), by decide, by decide +kernel, by decide +kernel, by decide +kernel⟩

end Props
