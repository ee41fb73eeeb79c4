/-
C269: histories of several ptrac files.
-/
import Verif.Proofs.Readers
import Verif.Proofs.McnpInput
import Verif.Proofs.McnpOutput
import Mathlib.Tactic.FieldSimp
import Mathlib.Tactic.Positivity
import Mathlib.Tactic.Linarith

set_option linter.unusedSimpArgs false

namespace Props
open Py NeutUtilities Ptrac
variable {F : Type}

/-- A line that starts a history: two or three words, the first a whole number. -/
def HistoryLine (l : Str) : Prop := ∃ ws, Spec.IsWords l ws ∧ (ws.length = 2 ∨ ws.length = 3) ∧ ∃ n, pyInt (ws.headD []) = some n

private theorem loop_acc (flt : Str → Option F) (ls : List Str) : ∀ (hs : List (Option (History F))) (cur : Option (History F)) (temp : Option (List Str)),
    tracksLoop flt hs cur temp ls = (tracksLoop flt [] cur temp ls).map (fun r => hs ++ r) := by
  induction ls with
  | nil => intro hs cur temp; simp [tracksLoop, Except.map]
  | cons l ls ih =>
    intro hs cur temp
    unfold tracksLoop
    simp only
    split_ifs with h1 h2 h3
    · cases pyInt ((stringCleanAndSplit l).headD []) with
      | none => rfl
      | some n =>
        simp only
        rw [ih (hs ++ [cur]), ih ([] ++ [cur])]
        cases tracksLoop flt [] (some ⟨n, []⟩) temp ls <;> simp [Except.map]
    · cases pyInt ((stringCleanAndSplit l).headD []) with
      | none => rfl
      | some n => simp only; exact ih hs _ _
    · cases temp with
      | none => rfl
      | some t =>
        simp only
        cases processEvent flt (t ++ stringCleanAndSplit l) with
        | error e => rfl
        | ok ev =>
          cases cur with
          | none => rfl
          | some h => simp only; exact ih hs _ _
    · exact ih hs _ _

private theorem loop_temp (flt : Str → Option F) (ls : List Str) : ∀ (hs : List (Option (History F))) (cur : Option (History F)) (temp : Option (List Str))
    (r : List (Option (History F))), tracksLoop flt hs cur none ls = .ok r → tracksLoop flt hs cur temp ls = .ok r := by
  induction ls with
  | nil => intro hs cur temp r h; exact h
  | cons l ls ih =>
    intro hs cur temp r h
    unfold tracksLoop at h ⊢
    simp only at h ⊢
    split_ifs at h ⊢ with h1 h2 h3
    · cases hn : pyInt ((stringCleanAndSplit l).headD []) with
      | none => rw [hn] at h; cases h
      | some n => rw [hn] at h; simp only at h ⊢; exact ih _ _ _ _ h
    · cases hn : pyInt ((stringCleanAndSplit l).headD []) with
      | none => rw [hn] at h; cases h
      | some n => rw [hn] at h; simp only at h ⊢; exact ih _ _ _ _ h
    · exact h

private theorem words_of {l : Str} {ws : List Str} (h : Spec.IsWords l ws) (hne : ws ≠ []) : stringCleanAndSplit l = ws := by
  have e := splitWs_of_isWords h
  unfold stringCleanAndSplit
  rw [splitOn_stringCleaner (by rw [e]; exact hne), e]

private theorem loop_append (flt : Str → Option F) {m : Str} {b : List Str} {hb : List (Option (History F))} (hm : HistoryLine m)
    (h2 : processTracks flt (m :: b) = .ok hb) (a : List Str) : ∀ (cur : Option (History F)) (temp : Option (List Str)) (ha : List (Option (History F))),
    tracksLoop flt [] cur temp a = .ok ha → (∀ h ∈ ha, h ≠ none) → tracksLoop flt [] cur temp (a ++ m :: b) = .ok (ha ++ hb) := by
  induction a with
  | nil =>
    intro cur temp ha h hs
    simp only [tracksLoop, List.nil_append, Except.ok.injEq] at h
    subst h
    cases cur with
    | none => exact absurd rfl (hs none (by simp))
    | some c =>
      obtain ⟨ws, hw, hl, n, hn⟩ := hm
      have hne : ws ≠ [] := by rintro rfl; simp at hl
      have e := words_of hw hne
      unfold processTracks tracksLoop at h2
      simp only [e, hl, if_true, hn, Option.isSome_none, Bool.false_eq_true, if_false] at h2
      rw [List.nil_append]
      unfold tracksLoop
      simp only [e, hl, if_true, hn, Option.isSome_some, List.nil_append]
      rw [loop_acc, loop_temp flt b [] _ temp hb h2]
      rfl
  | cons l a ih =>
    intro cur temp ha h hs
    rw [List.cons_append]
    unfold tracksLoop at h ⊢
    simp only at h ⊢
    split_ifs at h ⊢ with h1 h2 h3
    · cases hn : pyInt ((stringCleanAndSplit l).headD []) with
      | none => rw [hn] at h; cases h
      | some n =>
        rw [hn] at h
        simp only at h ⊢
        rw [loop_acc] at h ⊢
        cases hr : tracksLoop flt [] (some ⟨n, []⟩) temp a with
        | error e => rw [hr] at h; cases h
        | ok r =>
          rw [hr] at h
          simp only [Except.map, Except.ok.injEq] at h
          subst h
          rw [ih _ _ _ hr (fun x hx => hs x (by simp [hx]))]
          simp [Except.map]
    · cases hn : pyInt ((stringCleanAndSplit l).headD []) with
      | none => rw [hn] at h; cases h
      | some n => rw [hn] at h; simp only at h ⊢; exact ih _ _ _ h hs
    · cases temp with
      | none => cases h
      | some t =>
        simp only at h ⊢
        cases hp : processEvent flt (t ++ stringCleanAndSplit l) with
        | error e => rw [hp] at h; cases h
        | ok ev =>
          rw [hp] at h
          simp only at h ⊢
          cases cur with
          | none => cases h
          | some c => simp only at h ⊢; exact ih _ _ _ h hs
    · exact ih _ _ _ h hs

/-- C269: the histories of two sets of tracks, one behind the other, are those of the first followed by those of the second. -/
theorem C269_append (flt : Str → Option F) {a b : List Str} {m : Str} {ha hb : List (Option (History F))}
    (h1 : processTracks flt a = .ok ha) (hs : ∀ h ∈ ha, h ≠ none) (hm : HistoryLine m) (h2 : processTracks flt (m :: b) = .ok hb) :
    processTracks flt (a ++ m :: b) = .ok (ha ++ hb) := loop_append flt hm h2 a none none ha h1 hs

/-- C269: in the other order the same histories are read, in the other order. -/
theorem C269_swap (flt : Str → Option F) {a b : List Str} {m m' : Str} {ha hb : List (Option (History F))}
    (h1 : processTracks flt (m' :: a) = .ok ha) (hs : ∀ h ∈ ha ++ hb, h ≠ none) (hm : HistoryLine m) (hm' : HistoryLine m')
    (h2 : processTracks flt (m :: b) = .ok hb) :
    ∃ r r', processTracks flt (m' :: a ++ m :: b) = .ok r ∧ processTracks flt (m :: b ++ m' :: a) = .ok r' ∧ r.Perm r' :=
  ⟨_, _, C269_append flt h1 (fun h hh => hs h (by simp [hh])) hm h2, C269_append flt h2 (fun h hh => hs h (by simp [hh])) hm' h1,
    List.perm_append_comm⟩

/-- C269: a file with the lines of both behind its header. -/
theorem C269_file (flt : Str → Option F) {fs : FS} {path : Str} {head a b : List Str} {m : Str} {ha hb : List (Option (History F))}
    (h9 : head.length = 9) (hl : ∀ l ∈ head ++ (a ++ m :: b), ∀ c ∈ l, isLineBreak c = false)
    (hf : fs.node path = some (.file ((head ++ (a ++ m :: b)).flatMap (fun l => l ++ ['\n']))))
    (h1 : processTracks flt a = .ok ha) (hs : ∀ h ∈ ha, h ≠ none) (hm : HistoryLine m) (h2 : processTracks flt (m :: b) = .ok hb) :
    readPtrac flt path fs = (.ok (ha ++ hb), fs) := by
  unfold readPtrac
  rw [PyM.bind_ok (getLines_file hf), univNL_splitlines_flatMap hl]
  unfold removeHeader
  rw [← h9, List.drop_left, C269_append flt h1 hs hm h2]
  rfl

/-- C269: the mean number of events of two sets together is their mean, weighted with the numbers of histories. -/
theorem C269_mean {a b : List (History F)} {x y : ℚ} (hx : meanNumEvents a = .ok x) (hy : meanNumEvents b = .ok y) :
    ∃ z, meanNumEvents (a ++ b) = .ok z ∧ z * (a.length + b.length) = x * a.length + y * b.length ∧ min x y ≤ z ∧ z ≤ max x y := by
  have ev : ∀ (l : List (History F)) (k : Nat), l.foldl (fun n h => n + h.events.length) k = k + l.foldl (fun n h => n + h.events.length) 0 := by
    intro l
    induction l with
    | nil => intro k; rfl
    | cons h l ih => intro k; rw [List.foldl_cons, List.foldl_cons, ih, ih (0 + _)]; omega
  unfold meanNumEvents at hx hy ⊢
  simp only at hx hy ⊢
  rw [List.foldl_append, ev b, List.length_append]
  generalize a.foldl (fun n h => n + h.events.length) 0 = p at *
  generalize b.foldl (fun n h => n + h.events.length) 0 = q at *
  split_ifs at hx hy with h1 h2
  simp only [Except.ok.injEq] at hx hy
  rw [if_neg (by omega)]
  have pa : (0 : ℚ) < a.length := by exact_mod_cast Nat.pos_of_ne_zero h1
  have pb : (0 : ℚ) < b.length := by exact_mod_cast Nat.pos_of_ne_zero h2
  have ex : (p : ℚ) = x * a.length := by rw [← hx]; field_simp
  have ey : (q : ℚ) = y * b.length := by rw [← hy]; field_simp
  refine ⟨_, rfl, ?_, ?_, ?_⟩
  · push_cast
    rw [ex, ey]; field_simp
  · push_cast
    rw [le_div_iff₀ (by positivity), ex, ey]
    nlinarith [mul_le_mul_of_nonneg_right (min_le_left x y) pa.le, mul_le_mul_of_nonneg_right (min_le_right x y) pb.le]
  · push_cast
    rw [div_le_iff₀ (by positivity), ex, ey]
    nlinarith [mul_le_mul_of_nonneg_right (le_max_left x y) pa.le, mul_le_mul_of_nonneg_right (le_max_right x y) pb.le]

example : HistoryLine p!"  2 1000" ∧ processTracks (fun _ => some (0 : ℚ)) [p!"1 1000", p!"1 2 3 4 5 6 7", p!"1 2 3 4 5 6 7 8 9"] =
    .ok [some ⟨1, [⟨0, 0, 0, 0, 0, 0, 0, 0, 0, 0, 0, 0⟩]⟩] := by
  exact ⟨⟨[p!"2", p!"1000"], isWords_iff.2 (by decide +kernel), .inl rfl, 2, by decide +kernel⟩, by with_unfolding_all rfl⟩

end Props
