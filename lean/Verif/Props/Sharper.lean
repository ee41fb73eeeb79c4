import Verif.Model.MeshColumns
import Verif.Props.NeutUtilities
import Verif.Props.McnpAnalysis
import Verif.Props.McnpOutput6
import Verif.Props.MeshtalAnalysis

/-!
Complete descriptions where earlier theorems only gave some consequences: tabs (C10), peaks (C41), lines with energies and times
(C57), added columns (C58) and print table 101 (C162).
-/

set_option linter.unusedSectionVars false
set_option linter.unusedSimpArgs false

namespace Props
open Py NeutUtilities

/-! ### C10 -/

/-- C10: a line is a sequence of pieces without tabs, and the tabs between them become spaces; nothing else changes. -/
theorem C10_pieces (pieces : List Str) (last : Str) (n : Nat) (h : ∀ p ∈ pieces, '\t' ∉ p) (hl : '\t' ∉ last) :
    NeutUtilities.replaceTabWithSpace (pieces.flatMap (fun p => p ++ ['\t']) ++ last) (n : Int) =
      pieces.flatMap (fun p => p ++ List.replicate n ' ') ++ last := by
  unfold NeutUtilities.replaceTabWithSpace
  rw [NeutUtilities.replace_char_eq]
  have clean : ∀ (s : Str) (new : Str), '\t' ∉ s → s.flatMap (fun c => if c = '\t' then new else [c]) = s := by
    intro s new hs
    induction s with
    | nil => rfl
    | cons c cs ih =>
      rw [List.mem_cons, not_or] at hs
      rw [List.flatMap_cons, if_neg (Ne.symm hs.1), ih hs.2]
      rfl
  rw [List.flatMap_append, clean last _ hl]
  congr 1
  induction pieces with
  | nil => rfl
  | cons p ps ih =>
    rw [List.flatMap_cons, List.flatMap_append, ih (fun q hq => h q (List.mem_cons_of_mem _ hq)), List.flatMap_append,
      clean p _ (h p List.mem_cons_self), List.flatMap_cons]
    simp

example : NeutUtilities.replaceTabWithSpace p!"a\tb c\t" 2 = p!"a  b c  " := by decide +kernel

/-! ### C41 -/

section
variable {K : Type} [Field K] [LinearOrder K] [IsStrictOrderedRing K]
open McnpAnalysis

/-- C41: the returned time is that of the first maximum of the row of the first nearest energy, whatever the shape of the
    results, and there is one exactly if that row exists and has a value. -/
theorem C41_any_shape (target : K) (energies times : List K) (results : List (List K)) (t : K) :
    findPeakTime target energies times results = .ok t ↔
      ∃ (ei k : Nat) (e : K) (row : List K) (f : K), energies[ei]? = some e ∧ (∀ e' ∈ energies, |e - target| ≤ |e' - target|) ∧
        (∀ (j : Nat) (e' : K), j < ei → energies[j]? = some e' → |e - target| < |e' - target|) ∧
        results[ei]? = some row ∧ row[k]? = some f ∧ times[k]? = some t ∧
        (∀ (j : Nat) (f' : K), j < times.length → row[j]? = some f' → f' ≤ f) ∧
        (∀ (j : Nat) (f' : K), j < k → row[j]? = some f' → f' < f) := by
  have fwd : ∀ t, findPeakTime target energies times results = .ok t →
      ∃ (ei k : Nat) (e : K) (row : List K) (f : K), energies[ei]? = some e ∧ (∀ e' ∈ energies, |e - target| ≤ |e' - target|) ∧
        (∀ (j : Nat) (e' : K), j < ei → energies[j]? = some e' → |e - target| < |e' - target|) ∧
        results[ei]? = some row ∧ row[k]? = some f ∧ times[k]? = some t ∧
        (∀ (j : Nat) (f' : K), j < times.length → row[j]? = some f' → f' ≤ f) ∧
        (∀ (j : Nat) (f' : K), j < k → row[j]? = some f' → f' < f) := by
    intro t h
    unfold findPeakTime at h
    rw [ex_bind_ok] at h
    obtain ⟨ei, hei, h⟩ := h
    have hne : energies ≠ [] := by
      rintro rfl
      cases hei
    obtain ⟨ei', hei', a, ha, hmin, hfirst⟩ := argmin_spec (l := energies.map (fun e => |e - target|)) (by simpa using hne)
    obtain rfl : ei' = ei := by rw [hei] at hei'; exact (Except.ok.inj hei').symm
    rw [List.getElem?_map, Option.map_eq_some_iff] at ha
    obtain ⟨e, hee, rfl⟩ := ha
    rw [ex_bind_ok] at h
    obtain ⟨row, hrow, h⟩ := h
    rw [orErr_ok_iff] at hrow
    simp only [] at h
    rw [ex_bind_ok] at h
    obtain ⟨k, hk, h⟩ := h
    rw [orErr_ok_iff] at h
    have hv : row.take times.length ≠ [] := by
      intro hv
      rw [hv] at hk
      cases hk
    obtain ⟨k', hk', f, hf, hmax, hfm⟩ := argmax_spec hv
    obtain rfl : k' = k := by rw [hk] at hk'; exact (Except.ok.inj hk').symm
    have hkt : k' < times.length := (List.getElem?_eq_some_iff.1 h).1
    rw [List.getElem?_take, if_pos hkt] at hf
    refine ⟨ei', k', e, row, f, hee, fun e' he' => hmin _ (List.mem_map_of_mem he'), ?_, hrow, hf, h, ?_, ?_⟩
    · intro j e' hj he'
      exact hfirst j _ hj (by rw [List.getElem?_map, he']; rfl)
    · intro j f' hj hf'
      exact hmax f' (List.mem_of_getElem? (i := j) (by rw [List.getElem?_take, if_pos hj]; exact hf'))
    · intro j f' hj hf'
      exact hfm j f' hj (by rw [List.getElem?_take, if_pos (by omega)]; exact hf')
  refine ⟨fwd t, ?_⟩
  rintro ⟨ei, k, e, row, f, hee, hmin, hfirst, hrow, hf, ht, hmax, hfm⟩
  have hne : energies ≠ [] := by
    rintro rfl
    simp at hee
  obtain ⟨i, hi, a, ha, amin, afirst⟩ := argmin_spec (l := energies.map (fun e => |e - target|)) (by simpa using hne)
  rw [List.getElem?_map, Option.map_eq_some_iff] at ha
  obtain ⟨e2, he2, rfl⟩ := ha
  have hii : i = ei := by
    rcases lt_trichotomy i ei with hlt | heq | hgt
    · have h1 := hfirst i e2 hlt he2
      have h2 := amin _ (List.mem_map_of_mem (List.mem_of_getElem? hee))
      exact absurd h1 (not_lt.2 h2)
    · exact heq
    · have h1 := afirst ei (|e - target|) hgt (by rw [List.getElem?_map, hee]; rfl)
      have h2 := hmin _ (List.mem_of_getElem? he2)
      exact absurd h1 (not_lt.2 h2)
  subst hii
  have hkt : k < times.length := (List.getElem?_eq_some_iff.1 ht).1
  have hfk : (row.take times.length)[k]? = some f := by rw [List.getElem?_take, if_pos hkt]; exact hf
  have hv : row.take times.length ≠ [] := by
    intro hv
    rw [hv] at hfk
    simp at hfk
  obtain ⟨k', hk', f2, hf2, bmax, bfirst⟩ := argmax_spec hv
  have hkk : k' = k := by
    rcases lt_trichotomy k' k with hlt | heq | hgt
    · rw [List.getElem?_take, if_pos (by omega)] at hf2
      have h1 := hfm k' f2 hlt hf2
      have h2 := bmax _ (List.mem_of_getElem? hfk)
      exact absurd h1 (not_lt.2 h2)
    · exact heq
    · have h1 := bfirst k f hgt hfk
      have hk't : k' < times.length := by
        by_contra hn
        rw [List.getElem?_take, if_neg hn] at hf2
        cases hf2
      rw [List.getElem?_take, if_pos hk't] at hf2
      exact absurd h1 (not_lt.2 (hmax k' f2 hk't hf2))
  subst hkk
  unfold findPeakTime
  rw [hi]
  simp only [ex_ok_bind, hrow, orErr, hk', ht]

example : findPeakTime (3 : ℚ) [1, 3] [5, 6] [[0, 0], [1, 9, 20], [7]] = .ok 6 := by decide +kernel

end

/-! ### C57 -/

section
variable {K : Type} [Field K] [LinearOrder K] [IsStrictOrderedRing K] [FloorRing K]
open Meshtal

/-- The row has the coordinates that the two points share, moved to the nearest mid points. -/
def OnLine (p1 p2 : K × K × K) (cx cy cz : K) (r : MRow K) : Prop :=
  (p1.1 = p2.1 → r.x = some cx) ∧ (p1.2.1 = p2.2.1 → r.y = some cy) ∧ (p1.2.2 = p2.2.2 → r.z = some cz)

open Classical in
/-- C57: for any two points, and with an energy or a time, exactly the values of the rows on the line (or plane) that are close
    to the energy or time, in file order. -/
theorem C57_bins (m : Mesh K (Frame K)) (p1 p2 : K × K × K) (cx cy cz v : K) (hv : v ≠ 0)
    (hx : p1.1 = p2.1 → findNearestMid p1.1 m.xM = .ok cx) (hy : p1.2.1 = p2.2.1 → findNearestMid p1.2.1 m.yM = .ok cy)
    (hz : p1.2.2 = p2.2.2 → findNearestMid p1.2.2 m.zM = .ok cz) :
    extractLine m p1 p2 none none =
      .ok ((m.data.rows.filter (fun r => decide (OnLine p1 p2 cx cy cz r.2))).map (fun r => r.2.value)) ∧
    (m.data.kind = .e6 → extractLine m p1 p2 (some v) none =
      .ok ((m.data.rows.filter (fun r => decide (OnLine p1 p2 cx cy cz r.2 ∧ CloseTo v r.2.et))).map (fun r => r.2.value))) ∧
    (m.data.kind = .t6 → extractLine m p1 p2 none (some v) =
      .ok ((m.data.rows.filter (fun r => decide (OnLine p1 p2 cx cy cz r.2 ∧ CloseTo v r.2.et))).map (fun r => r.2.value))) ∧
    (m.data.kind ≠ .e6 → ∀ t, extractLine m p1 p2 (some v) t = .error .KeyError) ∧
    (m.data.kind ≠ .t6 → extractLine m p1 p2 none (some v) = .error .KeyError) := by
  have frames : ∀ (f : Frame K) (p q : MRow K → Bool), (f.keep p).keep q = f.keep (fun r => p r && q r) := by
    intro f p q
    simp only [Frame.keep, List.filter_filter]
    congr 2
    funext r
    exact Bool.and_comm _ _
  have main : ∀ erg time, extractLine m p1 p2 erg time =
      (filterEnergyTime (m.data.keep (fun r => decide (OnLine p1 p2 cx cy cz r))) erg time).map
        (fun f => f.rows.map (fun r => r.2.value)) := by
    intro erg time
    have fin : ∀ (f g : Frame K), f = g → (do
        let f ← filterEnergyTime f erg time
        pure (f.rows.map (fun r => r.2.value)) : Except Err (List (Option K))) =
        (filterEnergyTime g erg time).map (fun f => f.rows.map (fun r => r.2.value)) := by
      rintro f g rfl
      cases filterEnergyTime f erg time <;> rfl
    have step : ∀ (a b c : K) (mids : List K) (f : Frame K) (get : MRow K → Option K) (k : Frame K → Except Err (List (Option K))),
        (a = b → findNearestMid a mids = .ok c) →
        (if a = b then do
            let x ← findNearestMid a mids
            let f ← pure (f.keep (fun r => decide (get r = some x)))
            k f
          else do
            let f ← pure f
            k f) = k (f.keep (fun r => decide (a = b → get r = some c))) := by
      intro a b c mids f get k h
      by_cases hab : a = b
      · rw [if_pos hab, h hab]
        simp only [hab, forall_const]
        rfl
      · rw [if_neg hab]
        have : f.keep (fun r => decide (a = b → get r = some c)) = f := by
          simp [hab, Frame.keep]
        rw [this]
        rfl
    unfold extractLine
    refine (step p1.1 p2.1 cx m.xM m.data (fun r => r.x) _ hx).trans ?_
    refine (step p1.2.1 p2.2.1 cy m.yM _ (fun r => r.y) _ hy).trans ?_
    refine (step p1.2.2 p2.2.2 cz m.zM _ (fun r => r.z) _ hz).trans ?_
    apply fin
    rw [frames, frames]
    congr 1
    funext r
    rw [Bool.eq_iff_iff]
    simp only [Bool.and_eq_true, decide_eq_true_eq, and_assoc]
    exact Iff.rfl
  have rows : ∀ (f : Frame K) (p : MRow K → Bool), (f.keep p).rows = f.rows.filter (fun r => p r.2) := fun _ _ => rfl
  obtain ⟨c1, _, _, _, _⟩ := C55_filter_partial (m.data.keep (fun r => decide (OnLine p1 p2 cx cy cz r))).rows v hv
  obtain ⟨_, c2, c3, c4, c5⟩ := C55_filter_partial (m.data.keep (fun r => decide (OnLine p1 p2 cx cy cz r))).rows v hv
  have hfr : ∀ k, m.data.kind = k → m.data.keep (fun r => decide (OnLine p1 p2 cx cy cz r)) =
      ⟨k, (m.data.keep (fun r => decide (OnLine p1 p2 cx cy cz r))).rows⟩ := by
    rintro k rfl
    rfl
  have two : ((m.data.keep (fun r => decide (OnLine p1 p2 cx cy cz r))).rows.filter (fun r => decide (CloseTo v r.2.et))) =
      m.data.rows.filter (fun r => decide (OnLine p1 p2 cx cy cz r.2 ∧ CloseTo v r.2.et)) := by
    rw [rows, List.filter_filter]
    apply List.filter_congr
    intro r _
    rw [Bool.decide_and, Bool.and_comm]
  refine ⟨?_, ?_, ?_, ?_, ?_⟩
  · rw [main, c1]
    rfl
  · intro hk
    rw [main, hfr _ hk, c2, two]
    rfl
  · intro hk
    rw [main, hfr _ hk, c3, two]
    rfl
  · intro hk t
    rw [main, hfr _ rfl, c4 _ hk]
    rfl
  · intro hk
    rw [main, hfr _ rfl, c5 _ hk]
    rfl

example : extractLine exMesh (0, 0, 0) (10, 0, 0) none none = .ok [some 7, some 8] ∧ exMesh.data.kind ≠ .t6 := by
  constructor <;> decide +kernel

/-! ### C58 -/

/-- C58: the two functions add or replace one column of the mesh; the table, the other columns and all fields of the mesh are as
    before, the order of the two calls does not matter and repeating them changes nothing. -/
theorem C58_columns (m : Mesh K (Wide K)) :
    (∃ col, (calculateUpperMeshVals m).data.extra.get p!"max_vals" = some col ∧ List.Forall₂ (fun (r : Nat × MRow K) x =>
      ∀ v e, r.2.value = some v → r.2.err = some e → x = some (v * (1 + e))) m.data.frame.rows col) ∧
    (∃ col, (calculateLowerMeshVals m).data.extra.get p!"min_vals" = some col ∧ List.Forall₂ (fun (r : Nat × MRow K) x =>
      ∀ v e, r.2.value = some v → r.2.err = some e → x = some (v * (1 - e))) m.data.frame.rows col) ∧
    (∀ k, k ≠ p!"max_vals" → (calculateUpperMeshVals m).data.extra.get k = m.data.extra.get k) ∧
    (∀ k, k ≠ p!"min_vals" → (calculateLowerMeshVals m).data.extra.get k = m.data.extra.get k) ∧
    (∃ u, calculateUpperMeshVals m = { m with data := ⟨m.data.frame, u⟩ }) ∧
    (∃ l, calculateLowerMeshVals m = { m with data := ⟨m.data.frame, l⟩ }) ∧
    (∀ k, (calculateUpperMeshVals (calculateLowerMeshVals m)).data.extra.get k =
      (calculateLowerMeshVals (calculateUpperMeshVals m)).data.extra.get k) ∧
    (∀ k, (calculateUpperMeshVals (calculateUpperMeshVals m)).data.extra.get k = (calculateUpperMeshVals m).data.extra.get k) := by
  have ne : p!"max_vals" ≠ p!"min_vals" := by decide
  refine ⟨⟨_, Dict.get_set_self _ _ _, ?_⟩, ⟨_, Dict.get_set_self _ _ _, ?_⟩, ?_, ?_, ⟨_, rfl⟩, ⟨_, rfl⟩, ?_, ?_⟩
  · unfold upperVals
    rw [List.forall₂_map_right_iff]
    refine List.forall₂_same.2 (fun r _ v e hv he => ?_)
    rw [hv, he]
    change some (v + v * e) = _
    congr 1
    ring
  · unfold lowerVals
    rw [List.forall₂_map_right_iff]
    refine List.forall₂_same.2 (fun r _ v e hv he => ?_)
    rw [hv, he]
    change some (v - v * e) = _
    congr 1
    ring
  · intro k hk
    exact Dict.get_set_ne _ _ hk
  · intro k hk
    exact Dict.get_set_ne _ _ hk
  · intro k
    by_cases h1 : k = p!"max_vals"
    · subst h1
      simp only [calculateUpperMeshVals, calculateLowerMeshVals]
      rw [Dict.get_set_self, Dict.get_set_ne _ _ ne, Dict.get_set_self]
    · by_cases h2 : k = p!"min_vals"
      · subst h2
        simp only [calculateUpperMeshVals, calculateLowerMeshVals]
        rw [Dict.get_set_self, Dict.get_set_ne _ _ ne.symm, Dict.get_set_self]
      · simp only [calculateUpperMeshVals, calculateLowerMeshVals]
        rw [Dict.get_set_ne _ _ h1, Dict.get_set_ne _ _ h2, Dict.get_set_ne _ _ h2, Dict.get_set_ne _ _ h1]
  · intro k
    by_cases h1 : k = p!"max_vals"
    · subst h1
      simp only [calculateUpperMeshVals]
      rw [Dict.get_set_self, Dict.get_set_self]
    · simp only [calculateUpperMeshVals]
      rw [Dict.get_set_ne _ _ h1]

example : (calculateUpperMeshVals { exMesh with data := ⟨exMesh.data, []⟩ }).data.extra =
    [(p!"max_vals", [some (77 / 10), some (88 / 10)])] := by decide +kernel

end

/-! ### C162 -/

section
open McnpOutput Spec

/-- C162: the rows are returned word by word exactly if there are none, or none has more than nine words and one has nine;
    shorter rows stay (the missing entries at the end are empty). Anything else raises ValueError. -/
theorem C162_rows {lines : List Str} {start : Nat} {rows : List Str} (h : Table101 lines start rows) {ws : List (List Str)}
    (hw : List.Forall₂ IsWords rows ws) :
    readTable101 lines start = if rows = [] ∨ ((∀ w ∈ ws, w.length ≤ 9) ∧ ∃ w ∈ ws, w.length = 9) then .ok (table101Names, ws)
      else .error .ValueError := by
  have e : rows.map splitWs = ws := by
    clear h
    induction hw with
    | nil => rfl
    | cons h _ ih => rw [List.map_cons, ih, splitWs_of_isWords h]
  rw [table101_eq h, e]
  unfold frame
  have h9 : table101Columns.length = 9 := rfl
  have hr : ws = [] ↔ rows = [] := by
    rw [← e, List.map_eq_nil_iff]
  by_cases hne : rows = []
  · rw [if_pos (.inl (hr.2 hne)), if_pos (.inl hne)]
    rfl
  have key : (ws.map List.length).foldl max 0 = 9 ↔ (∀ w ∈ ws, w.length ≤ 9) ∧ ∃ w ∈ ws, w.length = 9 := by
    constructor
    · intro hm
      constructor
      · intro w hw'
        have := (foldl_max_ge (ws.map List.length) 0).2 w.length (List.mem_map_of_mem hw')
        omega
      · have : ∀ (l : List Nat) (a : Nat), l.foldl max a = a ∨ l.foldl max a ∈ l := by
          intro l
          induction l with
          | nil => intro a; exact .inl rfl
          | cons x l ih =>
            intro a
            rw [List.foldl_cons]
            rcases ih (max a x) with hx | hx
            · rw [hx]
              rcases max_choice a x with hc | hc
              · exact .inl hc
              · rw [hc]; exact .inr List.mem_cons_self
            · exact .inr (List.mem_cons_of_mem _ hx)
        rcases this (ws.map List.length) 0 with hc | hc
        · omega
        · rw [hm, List.mem_map] at hc
          exact hc
    · rintro ⟨hle, w, hw', hl⟩
      apply le_antisymm
      · have : ∀ (l : List Nat) (a : Nat), a ≤ 9 → (∀ x ∈ l, x ≤ 9) → l.foldl max a ≤ 9 := by
          intro l
          induction l with
          | nil => intro a ha _; exact ha
          | cons x l ih =>
            intro a ha hx
            rw [List.foldl_cons]
            exact ih _ (max_le ha (hx x List.mem_cons_self)) (fun y hy => hx y (List.mem_cons_of_mem _ hy))
        apply this _ _ (Nat.zero_le _)
        intro x hx
        obtain ⟨w, hw2, rfl⟩ := List.mem_map.1 hx
        exact hle w hw2
      · rw [← hl]
        exact (foldl_max_ge (ws.map List.length) 0).2 w.length (List.mem_map_of_mem hw')
  rw [h9]
  by_cases hc : (∀ w ∈ ws, w.length ≤ 9) ∧ ∃ w ∈ ws, w.length = 9
  · rw [if_pos (.inr (key.2 hc)), if_pos (.inr hc)]
    rfl
  · rw [if_neg (by rintro (h' | h'); exact hne (hr.1 h'); exact hc (key.1 h')),
      if_neg (by rintro (h' | h'); exact hne h'; exact hc h')]

example : Table101 [p!"", p!"", p!"", p!"", p!"", p!"", p!" 1 n", p!"", p!" *******"] 0 [p!" 1 n"] ∧
    readTable101 [p!"", p!"", p!"", p!"", p!"", p!"", p!" 1 n", p!"", p!" *******"] 0 = .error .ValueError := by
  refine ⟨⟨⟨[p!"", p!"", p!"", p!"", p!"", p!""], [p!""], p!" *******", [], rfl, rfl, List.prefix_rfl, by decide +kernel, ?_⟩, ?_⟩,
    by decide +kernel⟩
  · intro b hb
    cases hb
    exact fun c hc => absurd hc List.not_mem_nil
  · intro r hr hb
    rw [List.mem_singleton] at hr
    subst hr
    exact absurd (hb '1' (by decide)) (by decide)

end

end Props
