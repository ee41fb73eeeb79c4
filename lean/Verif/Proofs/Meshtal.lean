/- Helper lemmas for meshtal_analysis.py. -/
import Verif.Model.MeshtalAnalysis
import Verif.Proofs.MapM
import Verif.Proofs.Dict
import Mathlib.Tactic.Linarith
import Mathlib.Tactic.Ring
import Mathlib.Tactic.FieldSimp

set_option linter.unusedSectionVars false

namespace Meshtal
open Py
variable {K : Type} [Field K] [LinearOrder K] [IsStrictOrderedRing K] [FloorRing K]

theorem rint_close (x : K) : |(rint x : K) - x| ≤ 1 / 2 := by
  have h1 := Int.fract_nonneg x
  have h2 := Int.fract_lt_one x
  have h3 := Int.floor_add_fract x
  unfold rint
  simp only
  rw [abs_le]
  split_ifs with ha hb hc
  · constructor <;> linarith
  · push_cast; constructor <;> linarith
  · constructor <;> linarith
  · push_cast
    constructor <;> linarith

theorem rint_int (n : Int) : rint (n : K) = n := by
  unfold rint
  simp

theorem round5_close (x : K) : |round5 x - x| ≤ 1 / 200000 := by
  have h := rint_close (x * 100000)
  unfold round5
  have : (rint (x * 100000) : K) / 100000 - x = ((rint (x * 100000) : K) - x * 100000) / 100000 := by
    field_simp
  rw [this, abs_div, abs_of_pos (by norm_num : (0 : K) < 100000), div_le_div_iff₀ (by norm_num) (by norm_num)]
  linarith

theorem round5_grid (n : Int) : round5 ((n : K) / 100000) = (n : K) / 100000 := by
  unfold round5
  rw [div_mul_cancel₀ _ (by norm_num), rint_int]

theorem nearestAux_spec (value : K) (ms : List K) : ∀ (pre : List K) (best : K) (bi : Nat), pre[bi]? = some best →
    (∀ (j : Nat) (x : K), pre[j]? = some x → |best - value| ≤ |x - value| ∧ (j < bi → |best - value| < |x - value|)) →
    ∃ i, (pre ++ ms)[i]? = some (nearestAux value best ms) ∧
      ∀ (j : Nat) (x : K), (pre ++ ms)[j]? = some x → |nearestAux value best ms - value| ≤ |x - value| ∧
        (j < i → |nearestAux value best ms - value| < |x - value|) := by
  induction ms with
  | nil => intro pre best bi h1 h2; exact ⟨bi, by simpa [nearestAux] using h1, by simpa [nearestAux] using h2⟩
  | cons m ms ih =>
    intro pre best bi h1 h2
    rw [nearestAux]
    have happ : pre ++ m :: ms = (pre ++ [m]) ++ ms := by simp
    have hlt : bi < pre.length := (List.getElem?_eq_some_iff.1 h1).1
    split_ifs with h
    · rw [happ]
      refine ih (pre ++ [m]) m pre.length (by simp) ?_
      intro j x hx
      rcases Nat.lt_or_ge j pre.length with hj | hj
      · rw [List.getElem?_append_left hj] at hx
        have := (h2 j x hx).1
        exact ⟨le_trans (le_of_lt h) this, fun _ => lt_of_lt_of_le h this⟩
      · have : j < (pre ++ [m]).length := (List.getElem?_eq_some_iff.1 hx).1
        simp at this
        have : j = pre.length := by omega
        subst this
        simp at hx
        subst hx
        exact ⟨le_refl _, fun hh => absurd hh (lt_irrefl _)⟩
    · rw [happ]
      refine ih (pre ++ [m]) best bi (by rw [List.getElem?_append_left hlt]; exact h1) ?_
      intro j x hx
      rcases Nat.lt_or_ge j pre.length with hj | hj
      · rw [List.getElem?_append_left hj] at hx
        exact h2 j x hx
      · have : j < (pre ++ [m]).length := (List.getElem?_eq_some_iff.1 hx).1
        simp at this
        have : j = pre.length := by omega
        subst this
        simp at hx
        subst hx
        exact ⟨not_lt.1 h, fun hh => absurd hh (by omega)⟩

/-- Two filters that keep tables of the given rows. -/
theorem keep_rows (f : Frame K) (p : MRow K → Bool) : (f.keep p).rows = f.rows.filter (fun r => p r.2) := rfl

theorem arrayT_grid {α β γ : Type} (is : List α) (js : List β) (g : α → β → γ) (hne : is ≠ []) :
    arrayT (is.map (fun i => js.map (fun j => g i j))) = .ok (js.map (fun j => is.map (fun i => g i j))) := by
  cases is with
  | nil => exact absurd rfl hne
  | cons i is =>
    rw [List.map_cons, arrayT, if_pos (by simp)]
    congr 1
    apply List.ext_getElem?
    intro k
    rw [List.getElem?_map, List.getElem?_map]
    simp only [List.length_map]
    rcases Nat.lt_or_ge k js.length with hk | hk
    · rw [List.getElem?_range hk, List.getElem?_eq_getElem hk]
      simp only [Option.map_some, Option.some.injEq, List.map_cons]
      rw [List.filterMap_cons_some (b := g i js[k]) (by simp [hk])]
      congr 1
      rw [List.filterMap_map]
      rw [← List.filterMap_eq_map]
      apply List.filterMap_congr
      intro x _
      simp [hk]
    · rw [List.getElem?_eq_none (by simpa using hk), List.getElem?_eq_none hk]
      rfl

theorem filter_flatMap_key {α β : Type} [DecidableEq α] (l : List α) (g : α → List β) (p : β → Bool) (c : α)
    (hnd : l.Nodup) (hc : c ∈ l) (hp : ∀ a ∈ l, ∀ b ∈ g a, p b = decide (a = c)) :
    (l.flatMap g).filter p = g c := by
  induction l with
  | nil => simp at hc
  | cons a l ih =>
    rw [List.flatMap_cons, List.filter_append]
    rw [List.nodup_cons] at hnd
    by_cases ha : a = c
    · subst ha
      rw [List.filter_eq_self.2 (fun b hb => by simp [hp a (by simp) b hb])]
      rw [List.filter_eq_nil_iff.2, List.append_nil]
      intro b hb
      rw [List.mem_flatMap] at hb
      obtain ⟨a', ha', hb⟩ := hb
      rw [hp a' (by simp [ha']) b hb]
      simp only [decide_eq_true_eq]
      rintro rfl
      exact hnd.1 ha'
    · rw [List.filter_eq_nil_iff.2, List.nil_append]
      · exact ih hnd.2 (by rcases List.mem_cons.1 hc with h | h; exact absurd h.symm ha; exact h)
          (fun a' ha' => hp a' (by simp [ha']))
      · intro b hb
        rw [hp a (by simp) b hb]
        simp [ha]

theorem filter_flatMap {α β : Type} (l : List α) (g : α → List β) (p : β → Bool) :
    (l.flatMap g).filter p = l.flatMap (fun a => (g a).filter p) := by
  induction l with
  | nil => rfl
  | cons a l ih => simp [List.flatMap_cons, List.filter_append, ih]

theorem whereEq_nodup {mids : List K} (hnd : mids.Nodup) (i : Nat) (c : K) (h : mids[i]? = some c) :
    whereEq mids (some c) = [i] := by
  unfold whereEq
  obtain ⟨hi, rfl⟩ := List.getElem?_eq_some_iff.1 h
  have : mids.zipIdx.filter (fun e => decide (some e.1 = some mids[i])) = [(mids[i], i)] := by
    have hz : mids.zipIdx = mids.zipIdx.take i ++ (mids[i], i) :: mids.zipIdx.drop (i + 1) := by
      have hl : i < mids.zipIdx.length := by simpa using hi
      conv_lhs => rw [← List.take_append_drop i mids.zipIdx, List.drop_eq_getElem_cons hl]
      simp
    rw [hz, List.filter_append, List.filter_cons]
    simp only [decide_true, if_true]
    have hother : ∀ e ∈ mids.zipIdx, e.2 ≠ i → e.1 ≠ mids[i] := by
      intro e he hne heq
      rw [List.mem_zipIdx_iff_getElem?] at he
      obtain ⟨he1, he2⟩ := List.getElem?_eq_some_iff.1 he
      apply hne
      exact (List.Nodup.getElem_inj_iff hnd).1 (by rw [he2, heq])
    rw [List.filter_eq_nil_iff.2, List.filter_eq_nil_iff.2]
    · rfl
    · intro e he
      simp only [Option.some.injEq, decide_eq_true_eq]
      refine hother e (List.mem_of_mem_drop he) ?_
      obtain ⟨j, hj, rfl⟩ := List.mem_iff_getElem.1 he
      simp
      omega
    · intro e he
      simp only [Option.some.injEq, decide_eq_true_eq]
      refine hother e (List.mem_of_mem_take he) ?_
      obtain ⟨j, hj, rfl⟩ := List.mem_iff_getElem.1 he
      simp at hj ⊢
      omega
  rw [this]
  rfl

theorem whereEq_absent {mids : List K} {c : Option K} (h : ∀ m ∈ mids, some m ≠ c) : whereEq mids c = [] := by
  unfold whereEq
  rw [List.filter_eq_nil_iff.2]
  · rfl
  · intro e he
    simpa using h e.1 (List.mem_iff_getElem?.2 ⟨e.2, List.mem_zipIdx_iff_getElem?.1 he⟩)

theorem whereEq_cases {mids : List K} (hnd : mids.Nodup) (c : Option K) :
    (∃ i x, c = some x ∧ mids[i]? = some x ∧ whereEq mids c = [i]) ∨ ((∀ m ∈ mids, some m ≠ c) ∧ whereEq mids c = []) := by
  by_cases h : ∃ m ∈ mids, some m = c
  · obtain ⟨m, hm, rfl⟩ := h
    obtain ⟨i, hi⟩ := List.mem_iff_getElem?.1 hm
    exact Or.inl ⟨i, m, rfl, hi, whereEq_nodup hnd i m hi⟩
  · push Not at h
    exact Or.inr ⟨h, whereEq_absent h⟩

theorem broadcast3_single (i j k : Nat) : broadcast3 [i] [j] [k] = .ok [(i, j, k)] := rfl

theorem broadcast3_empty (i j k : List Nat) (hi : i.length ≤ 1) (hj : j.length ≤ 1) (hk : k.length ≤ 1)
    (h : i = [] ∨ j = [] ∨ k = []) : broadcast3 i j k = .ok [] := by
  rcases i with _ | ⟨a, _ | ⟨_, _⟩⟩ <;> rcases j with _ | ⟨b, _ | ⟨_, _⟩⟩ <;> rcases k with _ | ⟨c, _ | ⟨_, _⟩⟩ <;>
    simp_all [broadcast3]

end Meshtal
