/- Property C295: each time step of a FISPACT output is read on its own. -/
import Verif.Props.FispactOutput3

set_option linter.unusedSectionVars false

namespace Props
open Py FispactOutput NeutUtilities
variable {K : Type} [Field K] [LinearOrder K] [IsStrictOrderedRing K]

/-- Spec: a line that is not one of those looked for in the whole file: the labels of the parameters, the head and the end of the summary, the mass. -/
def StepText (l : Str) : Prop :=
  (∀ f, l ≠ summaryBanner f) ∧ (∀ g, ¬ MassLine l g) ∧
  ∀ s ∈ [p!"0 Mass", p!"Mean flux", p!"Total irradiation time", p!"Total fluence", p!"Number of on-times", p!"fispact run time",
    p!"CPU Time used for case"], ¬ s <:+: l

private theorem version_mid {p c d q : List Str} (h : 50 ≤ p.length) : checkFispVersion (p ++ (c ++ q)) = checkFispVersion (p ++ (d ++ q)) ∧
    isFisII (p ++ (c ++ q)) = isFisII (p ++ (d ++ q)) :=
  C67_first_fifty _ _ (by rw [List.take_append_of_le_length h, List.take_append_of_le_length h])

private def paramVal (flt : Str → Option K) (line : Str) : Except Err K := do
  if (splitOn '=' line).length < 2 then .error .ValueError
  let v ← orErr .IndexError (splitOn '=' line)[1]?
  let w ← orErr .ValueError (splitOn ' ' (strip v))[0]?
  fltE flt w

private theorem param_from (flt : Str → Option K) (sub : Str) (a data : List Str) :
    (findIndFrom sub a.length data >>= fun i => orErr .IndexError (a ++ data)[i]? >>= paramVal flt) =
      (orErr .ValueError (data.find? (hasSub sub)) >>= paramVal flt) := by
  induction data generalizing a with
  | nil => rfl
  | cons l data ih =>
    unfold findIndFrom
    by_cases h : hasSub sub l = true
    · rw [if_pos h, List.find?_cons_of_pos h, ex_ok_bind, List.getElem?_append_right (le_refl _), Nat.sub_self]
      rfl
    · rw [if_neg h, List.find?_cons_of_neg h, ← ih (a ++ [l])]
      simp

private theorem param_eq (flt : Str → Option K) (data : List Str) (sub : Str) :
    readParameter flt data sub = (orErr .ValueError (data.find? (hasSub sub)) >>= paramVal flt) := by
  rw [← param_from flt sub [] data]
  unfold readParameter
  by_cases h : data = []
  · subst h; rfl
  · rw [if_neg h]; rfl

private theorem param_mid (flt : Str → Option K) {p c d q : List Str} {sub : Str} (hc : ∀ l ∈ c, ¬ sub <:+: l) (hd : ∀ l ∈ d, ¬ sub <:+: l) :
    readParameter flt (p ++ (c ++ q)) sub = readParameter flt (p ++ (d ++ q)) sub := by
  have : ∀ e : List Str, (∀ l ∈ e, ¬ sub <:+: l) → e.find? (hasSub sub) = none := by
    intro e he
    rw [List.find?_eq_none]
    intro l hl hs
    exact he l hl (hasSub_iff.1 hs)
  rw [param_eq, param_eq, List.find?_append, List.find?_append, List.find?_append, List.find?_append, this c hc, this d hd]

private theorem no_mass {l : Str} (h : ∀ g, ¬ MassLine l g) : massMatch (strip l) = none := by
  cases hm : massMatch (strip l) with
  | none => rfl
  | some g =>
    have := (C77_read_mass (fun _ => none : Str → Option ℚ) [l]).1 (by simpa using h)
    rw [readMass, hm] at this
    cases this

private theorem mass_free (flt : Str → Option K) {c q : List Str} (hc : ∀ l ∈ c, ∀ g, ¬ MassLine l g) : readMass flt (c ++ q) = readMass flt q := by
  induction c with
  | nil => rfl
  | cons l c ih =>
    rw [List.cons_append, readMass, no_mass (hc l (by simp))]
    exact ih (fun x hx => hc x (by simp [hx]))

private theorem mass_mid (flt : Str → Option K) {p c d q : List Str} (hc : ∀ l ∈ c, ∀ g, ¬ MassLine l g) (hd : ∀ l ∈ d, ∀ g, ¬ MassLine l g) :
    readMass flt (p ++ (c ++ q)) = readMass flt (p ++ (d ++ q)) := by
  induction p with
  | nil => rw [List.nil_append, List.nil_append, mass_free flt hc, mass_free flt hd]
  | cons l p ih => rw [List.cons_append, List.cons_append, readMass, readMass, ih]

private theorem block_free {a q : List Str} {f : Bool} (ha : summaryBanner f ∉ a) (hm : ∀ l ∈ a, ¬ p!"0 Mass" <:+: l) :
    findSummaryBlock (a ++ q) f = (findSummaryBlock q f).map (fun r => (r.1 + a.length, r.2 + a.length)) := by
  have h1 : a.findIdx? (fun l => l == summaryBanner f) = none := by
    rw [List.findIdx?_eq_none_iff]
    intro l hl
    rw [beq_eq_false_iff_ne]
    rintro rfl
    exact ha hl
  have h2 : a.findIdx? (fun l => hasSub p!"0 Mass" l) = none := by
    rw [List.findIdx?_eq_none_iff]
    intro l hl
    rw [hasSub_false_iff]
    exact hm l hl
  have e : ∀ data, findSummaryBlock data f = (orErr .ValueError (data.findIdx? (fun l => l == summaryBanner f)) >>= fun s =>
    orErr .StopIteration (data.findIdx? (fun l => hasSub p!"0 Mass" l)) >>= fun e => pure (s, e)) := fun _ => rfl
  rw [e, e, List.findIdx?_append, List.findIdx?_append, h1, h2, Option.none_or, Option.none_or]
  cases q.findIdx? (fun l => l == summaryBanner f) with
  | none => rfl
  | some s =>
    cases q.findIdx? (fun l => hasSub p!"0 Mass" l) with
    | none => rfl
    | some e => rfl

private theorem slice_behind {a q : List Str} {i j : Nat} : slice (a ++ q) (i + a.length) (j + a.length) = slice q i j := by
  unfold slice
  rw [Nat.add_comm i, Nat.add_comm j, List.take_length_add_append, List.drop_length_add_append]

private theorem summary_free (flt : Str → Option K) {a b q : List Str} (hf : isFisII (a ++ q) = isFisII (b ++ q))
    (ha : ∀ f, summaryBanner f ∉ a) (ham : ∀ l ∈ a, ¬ p!"0 Mass" <:+: l) (hb : ∀ f, summaryBanner f ∉ b) (hbm : ∀ l ∈ b, ¬ p!"0 Mass" <:+: l) :
    readSummaryData flt (a ++ q) = readSummaryData flt (b ++ q) := by
  unfold readSummaryData
  dsimp only
  rw [hf, block_free (ha _) ham, block_free (hb _) hbm]
  cases findSummaryBlock q (isFisII (b ++ q)) with
  | error e => rfl
  | ok r =>
    simp only [Except.map, ex_ok_bind]
    rw [Nat.add_right_comm, slice_behind, Nat.add_right_comm, slice_behind]

private theorem lines_eq (flt : Str → Option K) (path : Str) (lines : List Str) : readLines flt path lines = (do
    let sd ← readSummaryData flt lines
    let af ← readParameter flt lines p!"Mean flux"
    let ti ← readParameter flt lines p!"Total irradiation time"
    let tf ← readParameter flt lines p!"Total fluence"
    let ni ← readParameter flt lines p!"Number of on-times"
    let mk ← readMass flt lines
    let cpu ← readParameter flt lines (if isFisII lines then p!"fispact run time" else p!"CPU Time used for case")
    let ts ← readSteps flt lines (markers lines)
    pure ⟨path, checkFispVersion lines, isFisII lines, sd, findFirstCoolingIndex (sd.zipIdx.map (fun e => (e.2, e.1))), af, ti, tf, ni, mk, mk * 1000, cpu, ts⟩) := rfl

/-- Without the steps. -/
private theorem rest_mid (flt : Str → Option K) (path : Str) {p c d q : List Str} (h50 : 50 ≤ p.length) (hp : ∀ f, summaryBanner f ∉ p)
    (hpm : ∀ l ∈ p, ¬ p!"0 Mass" <:+: l) (hc : ∀ l ∈ c, StepText l) (hd : ∀ l ∈ d, StepText l) {ts ts' : List (TimeStep K)} {o : FisOut K}
    (h : readLines flt path (p ++ (c ++ q)) = .ok o) (hts : readSteps flt (p ++ (c ++ q)) (markers (p ++ (c ++ q))) = .ok ts)
    (hts' : readSteps flt (p ++ (d ++ q)) (markers (p ++ (d ++ q))) = .ok ts') :
    readLines flt path (p ++ (d ++ q)) = .ok { o with timesteps := ts' } := by
  have hv := version_mid (c := c) (d := d) (q := q) h50
  have hs : readSummaryData flt (p ++ (c ++ q)) = readSummaryData flt (p ++ (d ++ q)) := by
    rw [← List.append_assoc, ← List.append_assoc]
    refine summary_free flt (by rw [List.append_assoc, List.append_assoc]; exact hv.2) (fun f hm => ?_) (fun l hl => ?_) (fun f hm => ?_) (fun l hl => ?_)
    · rcases List.mem_append.1 hm with hm | hm
      · exact hp f hm
      · exact (hc _ hm).1 f rfl
    · rcases List.mem_append.1 hl with hl | hl
      · exact hpm l hl
      · exact (hc _ hl).2.2 _ (by simp)
    · rcases List.mem_append.1 hm with hm | hm
      · exact hp f hm
      · exact (hd _ hm).1 f rfl
    · rcases List.mem_append.1 hl with hl | hl
      · exact hpm l hl
      · exact (hd _ hl).2.2 _ (by simp)
  have hpar : ∀ s ∈ [p!"Mean flux", p!"Total irradiation time", p!"Total fluence", p!"Number of on-times", p!"fispact run time",
      p!"CPU Time used for case"], readParameter flt (p ++ (c ++ q)) s = readParameter flt (p ++ (d ++ q)) s := fun s hs =>
    param_mid flt (fun l hl => (hc l hl).2.2 s (List.mem_cons_of_mem _ hs)) (fun l hl => (hd l hl).2.2 s (List.mem_cons_of_mem _ hs))
  have hcpu := hpar (if isFisII (p ++ (d ++ q)) = true then p!"fispact run time" else p!"CPU Time used for case") (by split <;> simp)
  have hm := mass_mid flt (p := p) (q := q) (fun l hl => (hc l hl).2.1) (fun l hl => (hd l hl).2.1)
  rw [lines_eq, hs, hm, hv.1, hv.2, hpar _ (by simp), hpar p!"Total irradiation time" (by simp), hpar p!"Total fluence" (by simp),
    hpar p!"Number of on-times" (by simp), hcpu, hts] at h
  rw [lines_eq, hts']
  simp only [ex_bind_ok, ex_pure, Except.ok.injEq] at h ⊢
  obtain ⟨sd, h1, af, h2, ti, h3, tf, h4, ni, h5, mk, h6, cpu, h7, ts1, h8, rfl⟩ := h
  exact ⟨sd, h1, af, h2, ti, h3, tf, h4, ni, h5, mk, h6, cpu, h7, ts', rfl, rfl⟩

private theorem lines_steps {flt : Str → Option K} {path : Str} {lines : List Str} {o : FisOut K} (h : readLines flt path lines = .ok o) :
    readSteps flt lines (markers lines) = .ok o.timesteps := by
  rw [lines_eq] at h
  simp only [ex_bind_ok, ex_pure, Except.ok.injEq] at h
  obtain ⟨sd, h1, af, h2, ti, h3, tf, h4, ni, h5, mk, h6, cpu, h7, ts1, h8, rfl⟩ := h
  exact h8

/-- C295: if the lines of one step are replaced by others that can be read as a step, the record of this step becomes that of the new lines, and
    nothing else changes. -/
theorem C295_replaced (flt : Str → Option K) (path : Str) {pre c d : List Str} {a b : List (List Str)} {o : FisOut K} {t : TimeStep K}
    (hpre : ∀ l ∈ pre, ¬ StepLine l) (ha : ∀ x ∈ a, StepChunk x) (hb : ∀ x ∈ b, StepChunk x) (hc : StepChunk c) (hd : StepChunk d)
    (h50 : 50 ≤ (pre ++ a.flatten).length) (hp : ∀ f, summaryBanner f ∉ pre ++ a.flatten) (hpm : ∀ l ∈ pre ++ a.flatten, ¬ p!"0 Mass" <:+: l)
    (hct : ∀ l ∈ c, StepText l) (hdt : ∀ l ∈ d, StepText l) (ha0 : a ≠ [])
    (h : readLines flt path (pre ++ (a ++ c :: b).flatten) = .ok o) (ht : readTimeStep flt d a.length = .ok t) :
    readLines flt path (pre ++ (a ++ d :: b).flatten) = .ok { o with timesteps := o.timesteps.set (a.length - 1) t } := by
  have e : ∀ x : List Str, pre ++ (a ++ x :: b).flatten = (pre ++ a.flatten) ++ (x ++ b.flatten) := by intro x; simp
  have hch : ∀ x, StepChunk x → ∀ y ∈ a ++ x :: b, StepChunk y := by
    intro x hx y hy
    rcases List.mem_append.1 hy with hy | hy
    · exact ha y hy
    · rcases List.mem_cons.1 hy with rfl | hy
      · exact hx
      · exact hb y hy
  have hl : 0 < a.length := List.length_pos_iff.2 ha0
  have hts := lines_steps h
  have hts' : readSteps flt (pre ++ (a ++ d :: b).flatten) (markers (pre ++ (a ++ d :: b).flatten)) = .ok (o.timesteps.set (a.length - 1) t) := by
    rw [C75_steps flt pre _ hpre (hch c hc)] at hts
    rw [C75_steps flt pre _ hpre (hch d hd)]
    obtain ⟨h1, h2⟩ := hts
    refine ⟨by simpa using h1, fun i x hi hx => ?_⟩
    have hla : (a ++ c :: b).length = (a ++ d :: b).length := by simp
    by_cases hia : i = a.length
    · subst hia
      rw [List.getElem?_append_right (le_refl _), Nat.sub_self] at hx
      cases hx
      refine ⟨t, ?_, ht⟩
      rw [List.getElem?_set_self]
      rw [h1]
      simp only [List.length_append, List.length_cons]
      omega
    · have hx' : (a ++ c :: b)[i]? = some x := by
        rcases Nat.lt_or_ge i a.length with hlt | hge
        · rw [List.getElem?_append_left hlt] at hx ⊢; exact hx
        · rw [List.getElem?_append_right hge] at hx ⊢
          obtain ⟨k, hk⟩ : ∃ k, i - a.length = k + 1 := ⟨i - a.length - 1, by omega⟩
          rw [hk] at hx ⊢
          exact hx
      obtain ⟨t1, h3, h4⟩ := h2 i x hi hx'
      refine ⟨t1, ?_, h4⟩
      rw [List.getElem?_set_ne (by omega)]
      exact h3
  rw [e] at h hts hts' ⊢
  exact rest_mid flt path h50 hp hpm hct hdt h hts hts'

/-- C295: the lines before the second start line, which belong to no step, may be any lines of that kind. -/
theorem C295_first (flt : Str → Option K) (path : Str) {pre c d : List Str} {b : List (List Str)} {o : FisOut K}
    (hpre : ∀ l ∈ pre, ¬ StepLine l) (hb : ∀ x ∈ b, StepChunk x) (hc : StepChunk c) (hd : StepChunk d)
    (h50 : 50 ≤ pre.length) (hp : ∀ f, summaryBanner f ∉ pre) (hpm : ∀ l ∈ pre, ¬ p!"0 Mass" <:+: l)
    (hct : ∀ l ∈ c, StepText l) (hdt : ∀ l ∈ d, StepText l) (h : readLines flt path (pre ++ (c :: b).flatten) = .ok o) :
    readLines flt path (pre ++ (d :: b).flatten) = .ok o := by
  have hts := lines_steps h
  have hts' : readSteps flt (pre ++ (d :: b).flatten) (markers (pre ++ (d :: b).flatten)) = .ok o.timesteps := by
    rw [C75_steps flt pre _ hpre (by simpa using ⟨hc, hb⟩)] at hts
    rw [C75_steps flt pre _ hpre (by simpa using ⟨hd, hb⟩)]
    refine ⟨hts.1, fun i x hi hx => hts.2 i x hi ?_⟩
    obtain ⟨k, rfl⟩ : ∃ k, i = k + 1 := ⟨i - 1, by omega⟩
    exact hx
  rw [List.flatten_cons] at h hts hts' ⊢
  exact rest_mid flt path h50 hp hpm hct hdt h hts hts'

private theorem exmap_bind {α β γ : Type} (x : Except Err α) (f : α → Except Err β) (g : β → γ) :
    (x >>= f).map g = x >>= fun a => (f a).map g := by
  cases x <;> rfl

/-- C295: the same lines give the same record wherever they stand, but for the number of the step. -/
theorem C295_moved (flt : Str → Option K) (c : List Str) (i j : Nat) :
    readTimeStep flt c j = (readTimeStep flt c i).map (fun t => { t with stepNum := j + 1 }) := by
  unfold readTimeStep
  by_cases h : c = []
  · rw [if_pos h, if_pos h]; rfl
  · rw [if_neg h, if_neg h]
    simp only [exmap_bind]
    rfl

/-- C295: if a step is taken out of the file, its record goes and the numbers of the later ones fall by one; nothing else changes. -/
theorem C295_removed (flt : Str → Option K) (path : Str) {pre c : List Str} {a b : List (List Str)} {o : FisOut K}
    (hpre : ∀ l ∈ pre, ¬ StepLine l) (ha : ∀ x ∈ a, StepChunk x) (hb : ∀ x ∈ b, StepChunk x) (hc : StepChunk c)
    (h50 : 50 ≤ (pre ++ a.flatten).length) (hp : ∀ f, summaryBanner f ∉ pre ++ a.flatten) (hpm : ∀ l ∈ pre ++ a.flatten, ¬ p!"0 Mass" <:+: l)
    (hct : ∀ l ∈ c, StepText l) (ha0 : a ≠ []) (h : readLines flt path (pre ++ (a ++ c :: b).flatten) = .ok o) :
    readLines flt path (pre ++ (a ++ b).flatten) = .ok { o with
      timesteps := o.timesteps.take (a.length - 1) ++ (o.timesteps.drop a.length).map (fun t => { t with stepNum := t.stepNum - 1 }) } := by
  have hl : 0 < a.length := List.length_pos_iff.2 ha0
  have hts := lines_steps h
  have hts' : readSteps flt (pre ++ (a ++ b).flatten) (markers (pre ++ (a ++ b).flatten)) =
      .ok (o.timesteps.take (a.length - 1) ++ (o.timesteps.drop a.length).map (fun t => { t with stepNum := t.stepNum - 1 })) := by
    rw [C75_steps flt pre _ hpre (by simp only [List.mem_append, List.mem_cons]; rintro x (hx | rfl | hx) <;> [exact ha x hx; exact hc; exact hb x hx])] at hts
    rw [C75_steps flt pre _ hpre (by simp only [List.mem_append]; rintro x (hx | hx) <;> [exact ha x hx; exact hb x hx])]
    obtain ⟨h1, h2⟩ := hts
    have h1' : o.timesteps.length = a.length + b.length := by rw [h1]; simp
    have htk : (o.timesteps.take (a.length - 1)).length = a.length - 1 := by rw [List.length_take]; omega
    refine ⟨?_, fun i x hi hx => ?_⟩
    · simp only [List.length_append, List.length_map, List.length_drop, htk]; omega
    · rcases Nat.lt_or_ge i a.length with hlt | hge
      · rw [List.getElem?_append_left hlt] at hx
        obtain ⟨t, h3, h4⟩ := h2 i x hi (by rw [List.getElem?_append_left hlt]; exact hx)
        refine ⟨t, ?_, h4⟩
        rw [List.getElem?_append_left (by omega), List.getElem?_take, if_pos (by omega)]
        exact h3
      · rw [List.getElem?_append_right hge] at hx
        obtain ⟨t, h3, h4⟩ := h2 (i + 1) x (by omega) (by
          rw [List.getElem?_append_right (by omega), Nat.sub_add_comm hge]; exact hx)
        have h5 := C295_moved flt x (i + 1) (i + 1)
        have h6 := C295_moved flt x (i + 1) i
        rw [h4] at h5 h6
        simp only [Except.map, Except.ok.injEq] at h5 h6
        refine ⟨_, ?_, h6⟩
        rw [List.getElem?_append_right (by omega), htk, List.getElem?_map, List.getElem?_drop, show a.length + (i - 1 - (a.length - 1)) = i + 1 - 1 by omega, h3,
          Option.map_some]
        have : t.stepNum = i + 1 + 1 := by rw [h5]
        rw [this]
        rfl
  have e : pre ++ (a ++ c :: b).flatten = (pre ++ a.flatten) ++ (c ++ b.flatten) := by simp
  have e' : pre ++ (a ++ b).flatten = (pre ++ a.flatten) ++ ([] ++ b.flatten) := by simp
  rw [e] at h hts
  rw [e'] at hts' ⊢
  exact rest_mid flt path h50 hp hpm hct (by simp) h hts hts'

/-- C295: if the lines of a step are put into the file, its record is put in at the same place and the numbers of the later ones rise by one;
    nothing else changes. -/
theorem C295_inserted (flt : Str → Option K) (path : Str) {pre d : List Str} {a b : List (List Str)} {o : FisOut K} {t : TimeStep K}
    (hpre : ∀ l ∈ pre, ¬ StepLine l) (ha : ∀ x ∈ a, StepChunk x) (hb : ∀ x ∈ b, StepChunk x) (hd : StepChunk d)
    (h50 : 50 ≤ (pre ++ a.flatten).length) (hp : ∀ f, summaryBanner f ∉ pre ++ a.flatten) (hpm : ∀ l ∈ pre ++ a.flatten, ¬ p!"0 Mass" <:+: l)
    (hdt : ∀ l ∈ d, StepText l) (ha0 : a ≠ []) (h : readLines flt path (pre ++ (a ++ b).flatten) = .ok o) (ht : readTimeStep flt d a.length = .ok t) :
    readLines flt path (pre ++ (a ++ d :: b).flatten) = .ok { o with
      timesteps := o.timesteps.take (a.length - 1) ++ t :: (o.timesteps.drop (a.length - 1)).map (fun t => { t with stepNum := t.stepNum + 1 }) } := by
  have hl : 0 < a.length := List.length_pos_iff.2 ha0
  have hts := lines_steps h
  have hts' : readSteps flt (pre ++ (a ++ d :: b).flatten) (markers (pre ++ (a ++ d :: b).flatten)) =
      .ok (o.timesteps.take (a.length - 1) ++ t :: (o.timesteps.drop (a.length - 1)).map (fun t => { t with stepNum := t.stepNum + 1 })) := by
    rw [C75_steps flt pre _ hpre (by simp only [List.mem_append]; rintro x (hx | hx) <;> [exact ha x hx; exact hb x hx])] at hts
    rw [C75_steps flt pre _ hpre (by simp only [List.mem_append, List.mem_cons]; rintro x (hx | rfl | hx) <;> [exact ha x hx; exact hd; exact hb x hx])]
    obtain ⟨h1, h2⟩ := hts
    have h1' : o.timesteps.length = a.length + b.length - 1 := by rw [h1]; simp
    have htk : (o.timesteps.take (a.length - 1)).length = a.length - 1 := by rw [List.length_take]; omega
    refine ⟨?_, fun i x hi hx => ?_⟩
    · simp only [List.length_append, List.length_cons, List.length_map, List.length_drop, htk]; omega
    · rcases Nat.lt_trichotomy i a.length with hlt | heq | hgt
      · rw [List.getElem?_append_left hlt] at hx
        obtain ⟨u, h3, h4⟩ := h2 i x hi (by rw [List.getElem?_append_left hlt]; exact hx)
        refine ⟨u, ?_, h4⟩
        rw [List.getElem?_append_left (by omega), List.getElem?_take, if_pos (by omega)]
        exact h3
      · subst heq
        rw [List.getElem?_append_right le_rfl, Nat.sub_self] at hx
        simp only [List.getElem?_cons_zero, Option.some.injEq] at hx
        subst hx
        refine ⟨t, ?_, ht⟩
        rw [List.getElem?_append_right (by omega), htk, Nat.sub_self]
        rfl
      · obtain ⟨k, rfl⟩ : ∃ k, i = a.length + k + 1 := ⟨i - a.length - 1, by omega⟩
        rw [List.getElem?_append_right (by omega), show a.length + k + 1 - a.length = k + 1 by omega, List.getElem?_cons_succ] at hx
        obtain ⟨u, h3, h4⟩ := h2 (a.length + k) x (by omega) (by
          rw [List.getElem?_append_right (by omega), show a.length + k - a.length = k by omega]; exact hx)
        have h5 := C295_moved flt x (a.length + k) (a.length + k)
        have h6 := C295_moved flt x (a.length + k) (a.length + k + 1)
        rw [h4] at h5 h6
        simp only [Except.map, Except.ok.injEq] at h5 h6
        refine ⟨_, ?_, h6⟩
        rw [List.getElem?_append_right (by omega), htk, show a.length + k + 1 - 1 - (a.length - 1) = k + 1 by omega, List.getElem?_cons_succ,
          List.getElem?_map, List.getElem?_drop, show a.length - 1 + k = a.length + k - 1 by omega, h3, Option.map_some]
        have : u.stepNum = a.length + k + 1 := by rw [h5]
        rw [this]
  have e : pre ++ (a ++ b).flatten = (pre ++ a.flatten) ++ ([] ++ b.flatten) := by simp
  have e' : pre ++ (a ++ d :: b).flatten = (pre ++ a.flatten) ++ (d ++ b.flatten) := by simp
  rw [e] at h hts
  rw [e'] at hts' ⊢
  exact rest_mid flt path h50 hp hpm (by simp) hdt h hts hts'

/-- Lines in front of a file that contain nothing the reader looks for. -/
theorem fispact_front (flt : Str → Option K) (path : Str) {x lines : List Str} {o : FisOut K} (hx : ∀ l ∈ x, StepText l) (hs : ∀ l ∈ x, ¬ StepLine l)
    (hv : checkFispVersion (x ++ lines) = checkFispVersion lines) :
    readLines flt path (x ++ lines) = .ok o ↔ readLines flt path lines = .ok o := by
  have hf : isFisII (x ++ lines) = isFisII lines := by unfold isFisII; rw [hv]
  have hsum : readSummaryData flt (x ++ lines) = readSummaryData flt lines :=
    summary_free (b := []) flt hf (fun f hm => (hx _ hm).1 f rfl) (fun l hl => (hx l hl).2.2 _ (by simp)) (by simp) (by simp)
  have hpar : ∀ s ∈ [p!"Mean flux", p!"Total irradiation time", p!"Total fluence", p!"Number of on-times", p!"fispact run time",
      p!"CPU Time used for case"], readParameter flt (x ++ lines) s = readParameter flt lines s := fun s hs =>
    param_mid (p := []) (d := []) flt (fun l hl => (hx l hl).2.2 s (List.mem_cons_of_mem _ hs)) (by simp)
  have hcpu := hpar (if isFisII lines = true then p!"fispact run time" else p!"CPU Time used for case") (by split <;> simp)
  have hsteps : ∀ ts, readSteps flt (x ++ lines) (markers (x ++ lines)) = .ok ts ↔ readSteps flt lines (markers lines) = .ok ts := by
    intro ts
    obtain ⟨pre, cs, rfl, hpre, hcs⟩ := C75_form lines
    rw [← List.append_assoc, C75_steps flt (x ++ pre) cs _ hcs, C75_steps flt pre cs hpre hcs]
    intro l hl
    rcases List.mem_append.1 hl with hl | hl
    · exact hs l hl
    · exact hpre l hl
  rw [lines_eq, lines_eq, hsum, mass_free flt (fun l hl => (hx l hl).2.1), hv, hf, hpar _ (by simp), hpar p!"Total irradiation time" (by simp),
    hpar p!"Total fluence" (by simp), hpar p!"Number of on-times" (by simp), hcpu]
  simp only [ex_bind_ok, hsteps]

private def exLast : List Str := exStep ++ [p!" -----Irradiation Phase-----", p!"0 Mass of", p!"Mean flux = 1", p!"Total irradiation time = 1",
  p!"Total fluence = 1", p!"Number of on-times = 1", p!"fispact run time = 1"]
private def exOther : List Str := exStep.set 1 p!"0  TOTAL NUMBER OF NUCLIDES PRINTED IN INVENTORY      9"
private def exFile (c : List Str) : List Str := List.replicate 50 [] ++ ([[p!"1 * * * first"]] ++ c :: [exLast]).flatten

-- a file of this form can be read; the number of nuclides of the step that is replaced is 7 before and 9 afterwards
private def exFlt : Str → Option ℚ := fun s => if s = p!"1" then some 1 else some 0
example : (readLines exFlt [] (exFile exStep)).map (fun o => (o.aveFlux, o.timesteps.map (·.numNuclides))) = .ok (1, [7, 7]) := by decide +kernel
example : (readLines exFlt [] (exFile exOther)).map (fun o => (o.aveFlux, o.timesteps.map (·.numNuclides))) = .ok (1, [9, 7]) := by decide +kernel
example : (readLines exFlt [] (List.replicate 50 [] ++ ([[p!"1 * * * first"]] ++ [exLast]).flatten)).map (fun o => (o.aveFlux, o.timesteps.map (·.stepNum))) =
    .ok (1, [2]) := by decide +kernel
example : StepChunk exStep ∧ StepChunk exOther ∧ StepChunk exLast := by
  refine ⟨⟨_, _, rfl, ?_, ?_⟩, ⟨_, _, rfl, ?_, ?_⟩, ⟨_, _, rfl, ?_, ?_⟩⟩ <;> unfold StepLine <;> decide
private theorem st_of {l : Str} (h1 : l.head? ≠ some ' ') (h2 : 'M' ∉ l ∨ ¬ p!"Mass" <:+: l)
    (h3 : ∀ s ∈ [p!"0 Mass", p!"Mean flux", p!"Total irradiation time", p!"Total fluence", p!"Number of on-times", p!"fispact run time",
      p!"CPU Time used for case"], ¬ s <:+: l) : StepText l := by
  refine ⟨fun f hf => h1 ?_, fun g hg => ?_, h3⟩
  · subst hf
    cases f <;> rfl
  · obtain ⟨w, s1, s2, s3, s4, rest, rfl, -⟩ := hg
    rcases h2 with h2 | h2
    · exact h2 (by simp)
    · exact h2 ⟨w ++ (p!"0" ++ s1), p!" of material input" ++ (s2 ++ (p!"=" ++ (s3 ++ (g ++ (s4 ++ (p!"kg." ++ rest)))))), by simp⟩
example : ∀ l ∈ exOther, StepText l := by
  intro l hl
  refine st_of ?_ (.inr ?_) ?_ <;> revert l <;> decide +kernel

/-- Spec: the tables of a step end within its lines: a page that begins with 1 follows the list of dominant nuclides, and the headings stand where
    they can. -/
def StepEnds (c : List Str) : Prop :=
  (∃ p1 d2 k l, FirstWith c p!"DOMINANT NUCLIDES" p1 ∧ FirstWith (c.drop p1) p!"GAMMA HEAT" d2 ∧ 0 < d2 ∧ d2 + 3 ≤ k ∧
    (c.drop p1)[k]? = some l ∧ l.head? = some '1') ∧
  ∃ e, FirstWith c p!"GAMMA SPECTRUM AND ENERGIES/SECOND" e ∧ 3 ≤ e

private theorem find_more {c : List Str} {s : Str} {k : Nat} (x : List Str) (h : findInd c s = .ok k) : findInd (c ++ x) s = .ok k := by
  rw [C05_find_ind_ok] at h ⊢
  obtain ⟨⟨l, hl, hs⟩, hm⟩ := h
  obtain ⟨hk, -⟩ := List.getElem?_eq_some_iff.1 hl
  refine ⟨⟨l, by rw [List.getElem?_append_left hk]; exact hl, hs⟩, fun j hj => ?_⟩
  rintro ⟨l', hl', hs'⟩
  rw [List.getElem?_append_left (by omega)] at hl'
  exact hm j hj ⟨l', hl', hs'⟩

private theorem find_lt {c : List Str} {s : Str} {k : Nat} (h : findInd c s = .ok k) : k < c.length := by
  rw [C05_find_ind_ok] at h
  obtain ⟨⟨l, hl, _⟩, -⟩ := h
  exact (List.getElem?_eq_some_iff.1 hl).1

private theorem get_more {c : List Str} {k : Nat} {l : Str} (x : List Str) {e : Err} (h : orErr e c[k]? = .ok l) : orErr e (c ++ x)[k]? = .ok l := by
  cases hc : c[k]? with
  | none => rw [hc] at h; cases h
  | some y =>
    rw [hc] at h
    rw [List.getElem?_append_left (List.getElem?_eq_some_iff.1 hc).1, hc]
    exact h

private theorem fcol_more {flt : Str → Option K} {c : List Str} {k a b : Nat} {v : K} (x : List Str) (h : fcol flt c k a b = .ok v) :
    fcol flt (c ++ x) k a b = .ok v := by
  unfold fcol at h ⊢
  rw [ex_bind_ok] at h ⊢
  obtain ⟨l, h1, h2⟩ := h
  exact ⟨l, get_more x h1, h2⟩

private theorem scol_more {c : List Str} {k a b : Nat} {v : Str} (x : List Str) (h : scol c k a b = .ok v) : scol (c ++ x) k a b = .ok v := by
  unfold scol at h ⊢
  rw [ex_bind_ok] at h ⊢
  obtain ⟨l, h1, h2⟩ := h
  exact ⟨l, get_more x h1, h2⟩

private theorem slice_more {c x : List Str} {a b : Nat} (h : b ≤ c.length) : slice (c ++ x) a b = slice c a b := by
  unfold slice
  rw [List.take_append_of_le_length h]

private theorem sliceI_more {c x : List Str} {a : Nat} {b : Int} (h0 : 0 ≤ b) (h : b ≤ c.length) : sliceI (c ++ x) a b = sliceI c a b := by
  obtain ⟨n, rfl⟩ := Int.eq_ofNat_of_zero_le h0
  have hn : n ≤ c.length := by exact_mod_cast h
  have e : ∀ l : List Str, n ≤ l.length → sliceI l a n = slice l a n := by
    intro l hl
    unfold sliceI clamp slice
    rw [if_pos (by omega), if_pos (by omega), Int.toNat_natCast, Int.toNat_natCast, Nat.min_eq_left hl]
    rcases Nat.le_total a l.length with ha | ha
    · rw [Nat.min_eq_left ha]
    · rw [Nat.min_eq_right ha, List.drop_eq_nil_of_le (by rw [List.length_take]; omega), List.drop_eq_nil_of_le (by rw [List.length_take]; omega)]
  rw [e _ hn, e _ (by rw [List.length_append]; omega), slice_more hn]

private theorem low_more {flt : Str → Option K} {ls x : List Str} {k : Nat} {l : Str} (hk : ls[k]? = some l) (h1 : l.head? = some '1') :
    domLow flt (ls ++ x) = domLow flt ls := by
  induction ls generalizing k with
  | nil => simp at hk
  | cons a ls ih =>
    rw [List.cons_append]
    unfold domLow
    cases k with
    | zero =>
      simp only [List.getElem?_cons_zero, Option.some.injEq] at hk
      subst hk
      rw [← List.head?_eq_getElem?, h1]
      rfl
    | succ k => rw [ih (k := k) (by simpa using hk)]

private theorem dom_more {flt : Str → Option K} {c : List Str} (x : List Str) {r} (he : StepEnds c) (h : parseDominant flt c = .ok r) :
    parseDominant flt (c ++ x) = .ok r := by
  obtain ⟨⟨p1, d2, k, l, hp, hd, hd0, hk, hl, h1⟩, -⟩ := he
  have hp' : findInd c p!"DOMINANT NUCLIDES" = .ok p1 := (C05_find_ind_ok _ _ _).2 hp
  have hd' : findInd (c.drop p1) p!"GAMMA HEAT" = .ok d2 := (C05_find_ind_ok _ _ _).2 hd
  have hne : c ≠ [] := by rintro rfl; cases hp'
  have hne' : c ++ x ≠ [] := by simp [hne]
  unfold parseDominant at h ⊢
  rw [if_neg hne, hp', ex_ok_bind] at h
  rw [if_neg hne', find_more x hp', ex_ok_bind]
  dsimp only at h ⊢
  have hdr : (c ++ x).drop p1 = c.drop p1 ++ x := List.drop_append_of_le_length (find_lt hp').le
  have hlow : (c.drop p1 ++ x).drop (d2 + 3) = (c.drop p1).drop (d2 + 3) ++ x := by
    refine List.drop_append_of_le_length ?_
    have := (List.getElem?_eq_some_iff.1 hl).1
    omega
  have hlow2 : ((c.drop p1).drop (d2 + 3))[k - (d2 + 3)]? = some l := by
    rw [List.getElem?_drop]
    rw [show d2 + 3 + (k - (d2 + 3)) = k by omega]
    exact hl
  rw [ex_bind_ok] at h
  obtain ⟨d1, hd1, h⟩ := h
  rw [hd', ex_ok_bind] at h
  rw [hdr, find_more x hd1, ex_ok_bind, find_more x hd', ex_ok_bind, hlow, low_more hlow2 h1,
    sliceI_more (by omega) (by have := find_lt hd'; omega)]
  exact h

private theorem comp_more {flt : Str → Option K} {c : List Str} (x : List Str) {r} (he : StepEnds c) (h : parseComposition flt c = .ok r) :
    parseComposition flt (c ++ x) = .ok r := by
  obtain ⟨-, e, hp, he⟩ := he
  have hp' : findInd c p!"GAMMA SPECTRUM AND ENERGIES/SECOND" = .ok e := (C05_find_ind_ok _ _ _).2 hp
  have hne : c ≠ [] := by rintro rfl; cases hp'
  have hne' : c ++ x ≠ [] := by simp [hne]
  unfold parseComposition at h ⊢
  rw [if_neg hne, ex_bind_ok] at h
  obtain ⟨s, hs, h⟩ := h
  rw [hp', ex_ok_bind] at h
  rw [if_neg hne', find_more x hs, ex_ok_bind, find_more x hp', ex_ok_bind, sliceI_more (by omega) (by have := find_lt hp'; omega)]
  exact h

private theorem spec_more {flt : Str → Option K} {c : List Str} (x : List Str) {r} (h : parseSpectra flt c = .ok r) :
    parseSpectra flt (c ++ x) = .ok r := by
  unfold parseSpectra at h ⊢
  by_cases hne : c = []
  · rw [if_pos hne] at h; cases h
  have hne' : c ++ x ≠ [] := by simp [hne]
  rw [if_neg hne, ex_bind_ok] at h
  obtain ⟨p, hp, h⟩ := h
  rw [if_neg hne', find_more x hp, ex_ok_bind]
  by_cases hl : c.length < p + 31
  · rw [if_pos hl] at h; cases h
  rw [if_neg hl] at h
  rw [if_neg (by rw [List.length_append]; omega), slice_more (by omega)]
  exact h

private theorem inv_more {flt : Str → Option K} {c : List Str} (x : List Str) {r} (h : parseInventory flt c = .ok r) :
    parseInventory flt (c ++ x) = .ok r := by
  unfold parseInventory at h ⊢
  by_cases hne : c = []
  · rw [if_pos hne] at h; cases h
  have hne' : c ++ x ≠ [] := by simp [hne]
  rw [if_neg hne, ex_bind_ok] at h
  obtain ⟨p, hp, h⟩ := h
  rw [if_neg hne', find_more x hp, ex_ok_bind, slice_more (find_lt hp).le]
  exact h

private theorem active_more {flt : Str → Option K} {c : List Str} (x : List Str) {r} (he : StepEnds c) (h : readActive flt c = .ok r) :
    readActive flt (c ++ x) = .ok r := by
  unfold readActive at h ⊢
  simp only [ex_bind_ok] at h ⊢
  obtain ⟨i, h1, s1, g1, a1, f1, s2, g2, a2, f2, s3, g3, a3, f3, s4, g4, a4, f4, s5, g5, a5, f5, d, hd, cp, hc, sp, hs, e⟩ := h
  exact ⟨i, find_more x h1, s1, scol_more x g1, a1, f1, s2, scol_more x g2, a2, f2, s3, scol_more x g3, a3, f3, s4, scol_more x g4, a4, f4,
    s5, scol_more x g5, a5, f5, d, dom_more x he hd, cp, comp_more x he hc, sp, spec_more x hs, e⟩

/-- C295: lines behind the tables of a step, as those of the summary behind the last step, do not change its record. -/
theorem C295_behind {flt : Str → Option K} {c : List Str} {i : Nat} {t : TimeStep K} (x : List Str) (h : readTimeStep flt c i = .ok t)
    (he : 0 < t.totalAct → StepEnds c) : readTimeStep flt (c ++ x) i = .ok t := by
  unfold readTimeStep at h ⊢
  by_cases hne : c = []
  · rw [if_pos hne] at h; cases h
  have hne' : c ++ x ≠ [] := by simp [hne]
  rw [if_neg hne] at h
  rw [if_neg hne']
  simp only [ex_bind_ok, ex_pure, Except.ok.injEq] at h ⊢
  obtain ⟨sl, h1, k1, h2, l1, h3, nn, h4, k2, h5, aa, h6, ba, h7, ga, h8, k3, h9, ta, h10, k4, h11, tn, h12, k5, h13, ah, h14, bh, h15, gh, h16, th, h17,
    im, h18, hn, h19, tm, h20, nf, h21, fs, h22, fi, h23, ab, h24, k6, h25, de, h26, act, h27, inv, h28, rfl⟩ := h
  have hact : readActiveIf flt (c ++ x) ta = .ok act := by
    unfold readActiveIf at h27 ⊢
    by_cases h0 : ta > 0
    · rw [if_pos h0, ex_bind_ok] at h27 ⊢
      obtain ⟨r, hr, e⟩ := h27
      exact ⟨r, active_more x (he h0) hr, e⟩
    · rw [if_neg h0] at h27 ⊢
      exact h27
  exact ⟨sl, fcol_more x h1, k1, find_more x h2, l1, get_more x h3, nn, h4, k2, find_more x h5, aa, fcol_more x h6, ba, fcol_more x h7, ga, fcol_more x h8,
    k3, find_more x h9, ta, fcol_more x h10, k4, find_more x h11, tn, fcol_more x h12, k5, find_more x h13, ah, fcol_more x h14, bh, fcol_more x h15,
    gh, fcol_more x h16, th, fcol_more x h17, im, fcol_more x h18, hn, fcol_more x h19, tm, fcol_more x h20, nf, fcol_more x h21, fs, scol_more x h22, fi, h23,
    ab, fcol_more x h24, k6, find_more x h25, de, fcol_more x h26, act, hact, inv, inv_more x h28, rfl⟩

private def exTables : List Str := [p!"x", p!"DOMINANT NUCLIDES", p!"(Bq) ", p!"", p!"", p!"GAMMA HEAT", p!"", p!"", p!"1", p!"",
  p!"GAMMA SPECTRUM AND ENERGIES/SECOND"]
example : StepEnds exTables :=
  ⟨⟨1, 4, 7, p!"1", (C05_find_ind_ok _ _ _).1 (by decide +kernel), (C05_find_ind_ok _ _ _).1 (by decide +kernel), by decide, by decide, rfl, rfl⟩,
    10, (C05_find_ind_ok _ _ _).1 (by decide +kernel), by decide⟩
example : parseDominant (fun _ => some (0 : ℚ)) exTables = .ok ([], []) := by decide +kernel
-- a list of dominant nuclides that ends with the lines is read to the end, and an empty line behind it raises IndexError
example : parseDominant (fun _ => some (0 : ℚ)) (exTables.take 8) = .ok ([], []) ∧
    parseDominant (fun _ => some (0 : ℚ)) (exTables.take 8 ++ [[]]) = .error .IndexError := by decide +kernel

end Props
