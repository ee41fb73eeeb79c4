/- Property C244: the mean number of events of a ptrac file that was read. -/
import Verif.Model.PtracMean
import Verif.Props.PtracFormat

namespace Props
open Py NeutUtilities Ptrac
variable {F : Type}

/-- C244 (part that holds): for every file with at least one history the mean is the number of events printed over the number of histories
    printed. Missing: files without histories (`C244_none_violated`). -/
theorem C244_mean_partial (flt : Str → Option F) (multi : Bool) (extra : Nat) (hx : extra ≤ 1) (p : PtracHeader) (hp : p.WF multi)
    (hs : List (Spec.Ptrac.Hist F)) (tracks : List Str) (h : PtracTracks flt multi extra Spec.Ptrac.ids2 hs tracks) (hne : hs ≠ []) (path : Str)
    (fs : FS) (hl : (getLines path fs).1 = .ok (p.lines ++ tracks)) :
    ∃ gs m, readPtrac flt path fs = (.ok gs, fs) ∧ meanOfRead gs = .ok m ∧ m * hs.length = ((hs.map (fun h => h.events.length)).sum : ℕ) := by
  obtain ⟨gs, hr, hg⟩ := C234_header flt multi extra hx p hp hs tracks h hne path fs hl
  obtain ⟨gs', hg', hlen, hf⟩ := C233_all_partial flt multi extra hx hs tracks h hne
  rw [hg] at hg'
  cases hg'
  have key : ∀ (hs : List (Spec.Ptrac.Hist F)) (gs : List (Option (History F))),
      List.Forall₂ (fun h o => ∃ g : History F, o = some g ∧ g.nps = h.nps ∧ g.events.length = h.events.length) hs gs →
      ∃ l, gs.mapM (fun h => orErr Err.AttributeError h) = .ok l ∧ l.length = hs.length ∧ l.map (fun g => g.events.length) = hs.map (fun h => h.events.length) := by
    intro hs gs hf
    induction hf with
    | nil => exact ⟨[], rfl, rfl, rfl⟩
    | cons h1 _ ih =>
      obtain ⟨g, rfl, -, he⟩ := h1
      obtain ⟨l, h2, h3, h4⟩ := ih
      refine ⟨g :: l, ?_, by simp [h3], by simp [he, h4]⟩
      rw [List.mapM_cons, h2]; rfl
  obtain ⟨l, h1, h2, h3⟩ := key hs gs hf
  have hl0 : l ≠ [] := by
    rintro rfl
    exact hne (List.length_eq_zero_iff.1 h2.symm)
  have hm : ∃ m, meanNumEvents l = .ok m := by
    unfold meanNumEvents
    rw [if_neg (by simpa using hl0)]
    exact ⟨_, rfl⟩
  obtain ⟨m, hm⟩ := hm
  refine ⟨gs, m, hr, by unfold meanOfRead; rw [h1]; exact hm, ?_⟩
  rw [← h2, ← h3]
  exact ((C29_mean l).2 m hm).1

/-- C244 is violated by files without histories: one history is reported, which is None, and the mean raises AttributeError. -/
theorem C244_none_violated (flt : Str → Option F) (path : Str) (fs : FS) (ls : List Str) (hl : (getLines path fs).1 = .ok ls)
    (h : ∀ l ∈ ls.drop 9, ∃ ws, Spec.IsWords l ws ∧ ws.length ≠ 2 ∧ ws.length ≠ 3 ∧ ws.length ≠ 9) :
    readPtrac flt path fs = (.ok [none], fs) ∧ meanOfRead ([none] : List (Option (History F))) = .error .AttributeError := by
  refine ⟨?_, rfl⟩
  have key : ∀ (ls : List Str) (temp : Option (List Str)), (∀ l ∈ ls, ∃ ws, Spec.IsWords l ws ∧ ws.length ≠ 2 ∧ ws.length ≠ 3 ∧ ws.length ≠ 9) →
      tracksLoop flt [] none temp ls = .ok [none] := by
    intro ls
    induction ls with
    | nil => intro temp _; rfl
    | cons l ls ih =>
      intro temp h
      obtain ⟨ws, hw, h2, h3, h9⟩ := h l (by simp)
      have hlen : (stringCleanAndSplit l).length = ws.length ∨ (stringCleanAndSplit l).length = 1 := by
        obtain ⟨ws', _, g2, g3⟩ := C04_clean_and_split l
        rw [g3, ← g2 ws hw]
        split
        · exact Or.inr rfl
        · exact Or.inl rfl
      rw [tracksLoop_other (by omega) (by omega)]
      exact ih _ (fun l hl => h l (by simp [hl]))
  unfold readPtrac
  rw [PyM.bind_ok (a := ls) (fs' := fs) (Prod.ext hl (getLines_snd path fs)), PyM.lift_run]
  unfold processTracks removeHeader
  rw [key _ none h]

/-- A file of ten lines, the last of which is a line of six variables. -/
example : ∀ l ∈ (List.replicate 9 p!"x" ++ [p!" 1 2 3 4 5 6"]).drop 9, ∃ ws, Spec.IsWords l ws ∧ ws.length ≠ 2 ∧ ws.length ≠ 3 ∧ ws.length ≠ 9 := by
  intro l hl
  have : l = p!" 1 2 3 4 5 6" := by simpa using hl
  subst this
  exact ⟨[p!"1", p!"2", p!"3", p!"4", p!"5", p!"6"], by rw [isWords_iff]; decide, by decide, by decide, by decide⟩

example : meanOfRead [some (⟨1, []⟩ : History Nat), some ⟨2, []⟩] = .ok 0 := by decide +kernel

end Props
