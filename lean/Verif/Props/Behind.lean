/- Property C296: text behind the results of an output. -/
import Verif.Props.TallyFile
import Verif.Props.StepsAlone
import Verif.Props.FileEnds

set_option linter.unusedSectionVars false

namespace Props
open Py NeutUtilities
variable {F : Type}

section
open McnpOutput

/-- Spec: a line in which the reader of MCNP outputs looks for nothing. -/
structure NoMcnp (l : Str) : Prop where
  table : ¬ p!"print table" <:+: l
  tally : ¬ p!"1tally" <+: l
  comment : ¬ p!"  comment." <+: l
  warning : ¬ p!"  warning." <+: l
  fatal : ¬ p!"fatal" <:+: lower l
  rendevous : ¬ p!"master set rendezvous nps" <:+: l
  term : ¬ TermLine l

/-- Spec: the lines of an output whose head is among the first hundred and in which no tally follows the heading of another at once. -/
structure McnpFile (lines : List Str) : Prop where
  head : ∃ l ∈ lines.take 100, p!"1mcnp" <+: l
  apart : ∀ (i : Nat) (a b : Str), lines[i]? = some a → lines[i + 1]? = some b → p!"1tally" <+: a → ¬ p!"1tally" <+: b

private theorem fl_more {t : Str} {n : Nat} {a : List Str} (b : List Str) {i j : Nat} (h : findLineFrom t n i a = .ok j) :
    findLineFrom t n i (a ++ b) = .ok j ∧ j < i + a.length := by
  induction a generalizing i with
  | nil => cases h
  | cons l a ih =>
    rw [findLineFrom] at h
    rw [List.cons_append, findLineFrom]
    by_cases hl : l.take n = t
    · rw [if_pos hl] at h ⊢
      cases h
      exact ⟨rfl, by simp⟩
    · rw [if_neg hl] at h ⊢
      obtain ⟨h1, h2⟩ := ih h
      exact ⟨h1, by rw [List.length_cons]; omega⟩

private theorem find_line_more {t : Str} {n : Nat} {a : List Str} (b : List Str) {j : Nat} (h : findLine t a n = .ok j) :
    findLine t (a ++ b) n = .ok j ∧ j < a.length := by
  have := fl_more b h
  exact ⟨this.1, by omega⟩

private theorem at_more {a : List Str} (b : List Str) {i : Nat} {l : Str} (h : at' a i = .ok l) : at' (a ++ b) i = .ok l := by
  unfold at' at h ⊢
  cases hc : a[i]? with
  | none => rw [hc] at h; cases h
  | some y =>
    rw [hc] at h
    rw [List.getElem?_append_left (List.getElem?_eq_some_iff.1 hc).1, hc]
    exact h

private theorem date_more {a b : List Str} (h : ∃ l ∈ a, p!"1mcnp" <+: l) :
    (do
      let i ← findLine p!"1mcnp" (a ++ b) 5
      let l ← at' (a ++ b) i
      let ws := stringCleanAndSplit l
      let date ← orErr .IndexError (getI ws (-2))
      let time ← orErr .IndexError (getI ws (-1))
      pure (date, time) : Except Err (Str × Str)) = (do
      let i ← findLine p!"1mcnp" a 5
      let l ← at' a i
      let ws := stringCleanAndSplit l
      let date ← orErr .IndexError (getI ws (-2))
      let time ← orErr .IndexError (getI ws (-1))
      pure (date, time)) := by
  cases hf : findLine p!"1mcnp" a 5 with
  | error e =>
    exfalso
    obtain ⟨l, hl, hp⟩ := h
    refine ((C03_find_line_error p!"1mcnp" a 5 e).1 hf).2 l hl ?_
    obtain ⟨t, rfl⟩ := hp
    rfl
  | ok i =>
    obtain ⟨h1, h2⟩ := find_line_more b hf
    rw [h1, ex_ok_bind, ex_ok_bind]
    have : at' (a ++ b) i = at' a i := by
      unfold at'
      rw [List.getElem?_append_left h2]
    rw [this]

private theorem run_date_more {lines : List Str} (x : List Str) (h : ∃ l ∈ lines.take 100, p!"1mcnp" <+: l) :
    readRunDate (lines ++ x) = readRunDate lines := by
  have key : ∀ ls : List Str, lines.take 100 <+: ls → readRunDate ls = (do
      let i ← findLine p!"1mcnp" (lines.take 100) 5
      let l ← at' (lines.take 100) i
      let ws := stringCleanAndSplit l
      let date ← orErr .IndexError (getI ws (-2))
      let time ← orErr .IndexError (getI ws (-1))
      pure (date, time)) := by
    intro ls hls
    unfold readRunDate
    dsimp only
    have hp : lines.take 100 <+: (if ls.length > 101 then ls.take 100 else ls) := by
      split
      · have h3 := hls.take 100
        rw [List.take_take] at h3
        exact h3
      · exact hls
    obtain ⟨b, hb⟩ := hp
    rw [← hb]
    exact date_more h
  rw [key _ ((List.take_prefix _ _).trans (List.prefix_append _ _)), key _ (List.take_prefix _ _)]

private theorem tables_more {lines x : List Str} (hx : ∀ l ∈ x, NoMcnp l) : getTableDict (lines ++ x) = getTableDict lines := by
  have key : ∀ (m : List Str) (n : Nat) (d : Dict Str Nat), (∀ l ∈ m, NoMcnp l) → (m.zipIdx n).foldl (fun (d : Dict Str Nat) e =>
    if hasSub p!"print table" e.1 then
      let key := (splitOn ' ' e.1).getLastD []
      if key = p!"160" ∨ key = p!"161" ∨ key.length > 3 then d else d.set key e.2
    else d) d = d := by
    intro m
    induction m with
    | nil => intros; rfl
    | cons l m ih =>
      intro n d h
      rw [List.zipIdx_cons, List.foldl_cons, if_neg (by rw [hasSub_iff]; exact (h l (by simp)).table)]
      exact ih _ _ (fun y hy => h y (by simp [hy]))
  unfold getTableDict
  rw [List.zipIdx_append, List.foldl_append, key _ _ _ hx]

private theorem slice_front {c x : List Str} {a b : Nat} (h : b ≤ c.length) : slice (c ++ x) a b = slice c a b := by
  unfold slice
  rw [List.take_append_of_le_length h]

private theorem table60_more {lines : List Str} (x : List Str) {i : Nat} {r} (h : readTable60 lines i = .ok r) : readTable60 (lines ++ x) i = .ok r := by
  unfold readTable60 at h ⊢
  rw [ex_bind_ok] at h
  obtain ⟨t, ht, h⟩ := h
  obtain ⟨h1, h2⟩ := find_line_more x ht
  rw [h1, ex_ok_bind, slice_front h2.le]
  exact h

private theorem table101_more {lines : List Str} (x : List Str) {i : Nat} {r} (h : readTable101 lines i = .ok r) : readTable101 (lines ++ x) i = .ok r := by
  unfold readTable101 at h ⊢
  rw [ex_bind_ok] at h
  obtain ⟨t, ht, h⟩ := h
  obtain ⟨h1, h2⟩ := find_line_more x ht
  rw [List.length_drop] at h2
  rw [List.drop_append_of_le_length (by omega), h1, ex_ok_bind, slice_front (by omega)]
  exact h

private theorem if_more {rd : List Str → Nat → Except Err (List Str × List (List Str))} {lines x : List Str}
    (hrd : ∀ i r, rd lines i = .ok r → rd (lines ++ x) i = .ok r) {d : Dict Str Nat} {k : Str} {r} (h : readTableIf rd lines d k = .ok r) :
    readTableIf rd (lines ++ x) d k = .ok r := by
  unfold readTableIf at h ⊢
  cases hk : d.get k with
  | none => rw [hk] at h; exact h
  | some i =>
    rw [hk] at h
    simp only [ex_bind_ok] at h ⊢
    obtain ⟨s, hs, e⟩ := h
    exact ⟨s, hrd i s hs, e⟩

private theorem nums_more {lines x : List Str} (hx : ∀ l ∈ x, NoMcnp l) : getTallyNums (lines ++ x) = getTallyNums lines := by
  unfold getTallyNums
  rw [List.filter_append]
  have : x.filter (fun l => l.take 11 = p!"1tally     ") = [] := by
    rw [List.filter_eq_nil_iff]
    intro l hl h
    refine (hx l hl).tally ?_
    have h2 : l.take 11 = p!"1tally     " := by simpa using h
    have h3 : p!"1tally     " <+: l := by rw [← h2]; exact List.take_prefix _ _
    exact List.IsPrefix.trans (by decide) h3
  rw [this, List.append_nil]

private theorem rend_more {lines x : List Str} (hx : ∀ l ∈ x, NoMcnp l) : getRendevousIndex (lines ++ x) = getRendevousIndex lines := by
  unfold getRendevousIndex
  rw [List.zipIdx_append, List.filter_append, List.map_append]
  have : (x.zipIdx (0 + lines.length)).filter (fun e => hasSub p!"master set rendezvous nps" e.1) = [] := by
    rw [List.filter_eq_nil_iff]
    rintro ⟨l, k⟩ hl h
    exact (hx l (List.fst_mem_of_mem_zipIdx hl)).rendevous (hasSub_iff.1 h)
  rw [this, List.map_nil, List.append_nil]

private theorem rend_lt {lines : List Str} {i : Nat} (h : findLastRendevous lines = some i) : i < lines.length := by
  unfold findLastRendevous at h
  dsimp only at h
  split at h
  · cases h
  · have hm : i ∈ getRendevousIndex lines := by
      unfold getI at h
      rw [if_neg (by decide)] at h
      split at h
      · exact List.mem_of_getElem? h
      · cases h
    unfold getRendevousIndex at hm
    obtain ⟨⟨l, k⟩, hk, rfl⟩ := List.mem_map.1 hm
    have := List.snd_lt_of_mem_zipIdx (List.mem_filter.1 hk).1
    simpa using this

private theorem final_more {lines x : List Str} (hx : ∀ l ∈ x, NoMcnp l) : finalLines (lines ++ x) = finalLines lines ++ x := by
  have ht : findTermLine (lines ++ x) = findTermLine lines := by
    cases h : findTermLine lines with
    | none =>
      rw [(C94_term _).2] at h ⊢
      intro l hl
      rcases List.mem_append.1 hl with hl | hl
      · exact h l hl
      · exact (hx l hl).term
    | some i =>
      unfold findTermLine at h ⊢
      cases hf : findLine p!"      run terminated " lines 21 with
      | error e => rw [hf] at h; cases h
      | ok j =>
        rw [hf] at h
        rw [(find_line_more x hf).1]
        exact h
  have hr : findLastRendevous (lines ++ x) = findLastRendevous lines := by
    unfold findLastRendevous
    rw [rend_more hx]
  unfold finalLines
  rw [ht, hr]
  cases h : findTermLine lines with
  | some i =>
    have : i < lines.length := by
      obtain ⟨⟨l, hl, _⟩, _⟩ := ((C94_term lines).1 i).1 h
      exact (List.getElem?_eq_some_iff.1 hl).1
    exact List.drop_append_of_le_length this.le
  | none =>
    simp only
    cases h2 : findLastRendevous lines with
    | none => rfl
    | some i => exact List.drop_append_of_le_length (rend_lt h2).le

private theorem sliceI_front {c x : List Str} {b : Int} (h0 : 0 ≤ b) (h : b ≤ c.length) : sliceI (c ++ x) 0 b = sliceI c 0 b := by
  obtain ⟨n, rfl⟩ := Int.eq_ofNat_of_zero_le h0
  have hn : n ≤ c.length := by exact_mod_cast h
  have e : ∀ l : List Str, n ≤ l.length → sliceI l 0 n = slice l 0 n := by
    intro l hl
    unfold sliceI clamp slice
    rw [if_pos (by omega), if_pos (by omega), Int.toNat_natCast, Nat.min_eq_left hl, Int.toNat_zero, Nat.zero_min]
  rw [e _ hn, e _ (by rw [List.length_append]; omega), slice_front hn]

private theorem tally_more [LinearOrder F] {flt : Str → Option F} {minusOne : F} {enum : List Str → List Str} {lines : List Str} (x : List Str) {tnum : Str}
    {t : Tally F} (hap : ∀ (i : Nat) (a b : Str), lines[i]? = some a → lines[i + 1]? = some b → p!"1tally" <+: a → ¬ p!"1tally" <+: b)
    (h : readTallyIn flt minusOne enum lines tnum = .ok t) : readTallyIn flt minusOne enum (lines ++ x) tnum = .ok t := by
  unfold readTallyIn at h ⊢
  simp only [ex_bind_ok] at h ⊢
  obtain ⟨r, hr, c0, h0, c, hc, l, hl, ty, hty, n, hn, pl, hpl, hl2, hhl, e, he, h⟩ := h
  obtain ⟨hr1, hr2⟩ := find_line_more x hr
  have hd : (lines ++ x).drop (r + 1) = lines.drop (r + 1) ++ x := List.drop_append_of_le_length (by omega)
  obtain ⟨he1, he2⟩ := find_line_more x he
  have he0 : e ≠ 0 := by
    rintro rfl
    obtain ⟨⟨a, ha, hat⟩, -⟩ := (C03_find_line_ok _ _ _ _).1 hr
    obtain ⟨⟨b, hb, hbt⟩, -⟩ := (C03_find_line_ok _ _ _ _).1 he
    rw [List.getElem?_drop, Nat.add_zero] at hb
    refine hap r a b ha hb ?_ ?_
    · refine List.IsPrefix.trans ?_ (List.take_prefix 15 a)
      rw [hat, List.append_assoc]
      exact List.prefix_append _ _
    · rw [← hbt]; exact List.take_prefix _ _
  refine ⟨r, hr1, c0, at_more x h0, c, hc, l, at_more x hl, ty, hty, n, hn, pl, at_more x hpl, hl2, at_more x hhl, e, by rw [hd]; exact he1, ?_⟩
  rw [hd, sliceI_front (by omega) (by omega)]
  exact h

/-- C296: lines behind an MCNP output in which the reader looks for nothing have no influence. -/
theorem C296_mcnp [LinearOrder F] {flt : Str → Option F} {minusOne : F} {enum : List Str → List Str} {path : Str} {lines x : List Str} {o : Output F}
    (hf : McnpFile lines) (hx : ∀ l ∈ x, NoMcnp l) (h : readOutputLines flt minusOne enum path lines = .ok o) :
    readOutputLines flt minusOne enum path (lines ++ x) = .ok o := by
  have hc : readCommentsWarnings (lines ++ x) = readCommentsWarnings lines := by
    unfold readCommentsWarnings
    have h1 : x.filter (fun l => startsWith l p!"  comment.") = [] := by
      rw [List.filter_eq_nil_iff]
      intro l hl h
      exact (hx l hl).comment (startsWith_iff.1 h)
    have h2 : x.filter (fun l => startsWith l p!"  warning.") = [] := by
      rw [List.filter_eq_nil_iff]
      intro l hl h
      exact (hx l hl).warning (startsWith_iff.1 h)
    rw [List.filter_append, List.filter_append, h1, h2, List.append_nil, List.append_nil]
  have hfat : checkFatal (lines ++ x) = checkFatal lines := by
    unfold checkFatal
    rw [List.any_append]
    have : x.any (fun l => hasSub p!"fatal" (lower l)) = false := by
      rw [List.any_eq_false]
      intro l hl h
      exact (hx l hl).fatal (hasSub_iff.1 h)
    rw [this, Bool.or_false]
  have hv : readVersion (lines ++ x) = readVersion lines := by
    cases lines with
    | nil => obtain ⟨l, hl, _⟩ := hf.head; simp at hl
    | cons l ls => rfl
  have hap : ∀ (i : Nat) (a b : Str), (finalLines lines)[i]? = some a → (finalLines lines)[i + 1]? = some b → p!"1tally" <+: a → ¬ p!"1tally" <+: b := by
    have : ∃ k, finalLines lines = lines.drop k := by
      unfold finalLines
      split
      · exact ⟨_, rfl⟩
      · split
        · exact ⟨_, rfl⟩
        · exact ⟨0, rfl⟩
    obtain ⟨k, hk⟩ := this
    rw [hk]
    intro i a b ha hb
    rw [List.getElem?_drop] at ha hb
    exact hf.apart (k + i) a b ha hb
  unfold readOutputLines at h ⊢
  rw [run_date_more x hf.head, tables_more hx, nums_more hx, hc, hfat, hv, show countRendevous (lines ++ x) = countRendevous lines by
    unfold countRendevous; rw [rend_more hx]]
  simp only [ex_bind_ok] at h ⊢
  obtain ⟨dt, h1, t60, h2, t101, h3, tls, h4, ts, h5, h6⟩ := h
  refine ⟨dt, h1, t60, if_more (fun i r => table60_more x) h2, t101, if_more (fun i r => table101_more x) h3, tls, h4, ts, ?_, h6⟩
  rw [mapM_except_ok_iff] at h5 ⊢
  refine h5.imp (fun n t ht => ?_)
  unfold readTally at ht ⊢
  rw [final_more hx]
  exact tally_more x hap ht

end

section
open FispactOutput
variable {K : Type} [Field K] [LinearOrder K] [IsStrictOrderedRing K]

/-- Spec: a line in which the reader of FISPACT outputs looks for nothing once the parameters have been found. -/
structure NoFispact (l : Str) : Prop where
  step : ¬ StepLine l
  version : ¬ p!"FISPACT VERSION 07.0/0" <:+: l
  mass : ∀ g, ¬ MassLine l g

/-- Spec: the tables of the last step, if it has some, end within the file. -/
def FispactFile (flt : Str → Option K) (lines : List Str) : Prop :=
  ∀ (a c : List Str) (i : Nat) (t : TimeStep K), lines = a ++ c → StepChunk c → readTimeStep flt c i = .ok t → 0 < t.totalAct → StepEnds c

private theorem version_more {lines x : List Str} (hx : ∀ l ∈ x, NoFispact l) : checkFispVersion (lines ++ x) = checkFispVersion lines := by
  have : (x.take (50 - lines.length)).find? (fun s => hasSub p!"FISPACT VERSION 07.0/0" s) = none := by
    rw [List.find?_eq_none]
    intro l hl h
    exact (hx l (List.mem_of_mem_take hl)).version (hasSub_iff.1 h)
  unfold checkFispVersion
  rw [List.take_append, List.find?_append, this, Option.or_none]

private theorem fi_more {p : Str → Bool} {a : List Str} {i : Nat} (b : List Str) (h : a.findIdx? p = some i) : (a ++ b).findIdx? p = some i ∧ i < a.length := by
  refine ⟨by rw [List.findIdx?_append, h]; rfl, ?_⟩
  rw [List.findIdx?_eq_some_iff_getElem] at h
  exact h.1

private theorem summary_more {flt : Str → Option K} {lines x : List Str} (hx : ∀ l ∈ x, NoFispact l) {r} (h : readSummaryData flt lines = .ok r) :
    readSummaryData flt (lines ++ x) = .ok r := by
  have hv : isFisII (lines ++ x) = isFisII lines := by unfold isFisII; rw [version_more hx]
  unfold readSummaryData at h ⊢
  dsimp only at h ⊢
  rw [hv]
  rw [ex_bind_ok] at h
  obtain ⟨⟨s, e⟩, hb, h⟩ := h
  have hb' : findSummaryBlock (lines ++ x) (isFisII lines) = .ok (s, e) ∧ e ≤ lines.length := by
    unfold findSummaryBlock at hb ⊢
    simp only [ex_bind_ok, orErr_ok_iff] at hb ⊢
    obtain ⟨s', h1, e', h2, h3⟩ := hb
    refine ⟨⟨s', (fi_more x h1).1, e', (fi_more x h2).1, h3⟩, ?_⟩
    cases h3
    exact (fi_more x h2).2.le
  rw [hb'.1, ex_ok_bind]
  dsimp only at h ⊢
  rw [slice_front hb'.2]
  exact h

private theorem find_ind_more {c : List Str} {s : Str} {k : Nat} (x : List Str) (h : findInd c s = .ok k) : findInd (c ++ x) s = .ok k := by
  rw [C05_find_ind_ok] at h ⊢
  obtain ⟨⟨l, hl, hs⟩, hm⟩ := h
  obtain ⟨hk, -⟩ := List.getElem?_eq_some_iff.1 hl
  refine ⟨⟨l, by rw [List.getElem?_append_left hk]; exact hl, hs⟩, fun j hj => ?_⟩
  rintro ⟨l', hl', hs'⟩
  rw [List.getElem?_append_left (by omega)] at hl'
  exact hm j hj ⟨l', hl', hs'⟩

private theorem param_more {flt : Str → Option K} {lines : List Str} (x : List Str) {sub : Str} {v : K} (h : readParameter flt lines sub = .ok v) :
    readParameter flt (lines ++ x) sub = .ok v := by
  rw [C76_parameter] at h ⊢
  obtain ⟨i, line, w, h1, h2, h3⟩ := h
  exact ⟨i, line, w, (C05_find_ind_ok _ _ _).1 (find_ind_more x ((C05_find_ind_ok _ _ _).2 h1)),
    by rw [List.getElem?_append_left (List.getElem?_eq_some_iff.1 h2).1]; exact h2, h3⟩

private theorem mass_more (flt : Str → Option K) {lines x : List Str} (hx : ∀ l ∈ x, NoFispact l) : readMass flt (lines ++ x) = readMass flt lines := by
  induction lines with
  | nil =>
    rw [List.nil_append]
    exact (C77_read_mass flt x).1 (fun l hl => (hx l hl).mass)
  | cons l ls ih => rw [List.cons_append, readMass, readMass, ih]

private theorem steps_more {flt : Str → Option K} {lines x : List Str} (hx : ∀ l ∈ x, NoFispact l) (hf : FispactFile flt lines) {ts : List (TimeStep K)}
    (h : readSteps flt lines (markers lines) = .ok ts) : readSteps flt (lines ++ x) (markers (lines ++ x)) = .ok ts := by
  obtain ⟨pre, cs, rfl, hpre, hcs⟩ := C75_form lines
  rcases List.eq_nil_or_concat cs with rfl | ⟨ds, c, rfl⟩
  · rw [C75_steps flt pre _ hpre hcs] at h
    have e : pre ++ ([] : List (List Str)).flatten ++ x = (pre ++ x) ++ ([] : List (List Str)).flatten := by simp
    rw [e, C75_steps flt _ _ ?_ hcs]
    · exact h
    · intro l hl
      rcases List.mem_append.1 hl with hl | hl
      · exact hpre l hl
      · exact (hx l hl).step
  · rw [List.concat_eq_append] at *
    rw [C75_steps flt pre _ hpre hcs] at h
    have hc : StepChunk c := hcs c (by simp)
    have hcx : StepChunk (c ++ x) := by
      obtain ⟨m, body, rfl, h1, h2⟩ := hc
      refine ⟨m, body ++ x, rfl, h1, fun l hl => ?_⟩
      rcases List.mem_append.1 hl with hl | hl
      · exact h2 l hl
      · exact (hx l hl).step
    have e : pre ++ (ds ++ [c]).flatten ++ x = pre ++ (ds ++ [c ++ x]).flatten := by simp
    rw [e, C75_steps flt pre _ hpre (by
      intro y hy
      rcases List.mem_append.1 hy with hy | hy
      · exact hcs y (by simp [hy])
      · rw [List.mem_singleton.1 hy]; exact hcx)]
    obtain ⟨h1, h2⟩ := h
    refine ⟨by simpa using h1, fun i y hi hy => ?_⟩
    rcases Nat.lt_or_ge i ds.length with hlt | hge
    · rw [List.getElem?_append_left hlt] at hy
      exact h2 i y hi (by rw [List.getElem?_append_left hlt]; exact hy)
    · rw [List.getElem?_append_right hge] at hy
      have hi0 : i - ds.length = 0 := by
        have := (List.getElem?_eq_some_iff.1 hy).1
        simp at this
        omega
      rw [hi0] at hy
      simp only [List.getElem?_cons_zero, Option.some.injEq] at hy
      subst hy
      obtain ⟨t, ht1, ht2⟩ := h2 i c hi (by rw [List.getElem?_append_right hge, hi0]; rfl)
      exact ⟨t, ht1, C295_behind x ht2 (hf (pre ++ ds.flatten) c i t (by simp) hc ht2)⟩

/-- C296: lines behind a FISPACT output in which the reader looks for nothing have no influence. -/
theorem C296_fispact {flt : Str → Option K} {path : Str} {lines x : List Str} {o : FisOut K} (hf : FispactFile flt lines) (hx : ∀ l ∈ x, NoFispact l)
    (h : readLines flt path lines = .ok o) : readLines flt path (lines ++ x) = .ok o := by
  have hv := version_more (lines := lines) hx
  have hv2 : isFisII (lines ++ x) = isFisII lines := by unfold isFisII; rw [hv]
  unfold readLines at h ⊢
  dsimp only at h ⊢
  rw [hv, hv2, mass_more flt hx]
  simp only [ex_bind_ok] at h ⊢
  obtain ⟨sd, h1, af, h2, ti, h3, tf, h4, ni, h5, mk, h6, cpu, h7, ts, h8, h9⟩ := h
  exact ⟨sd, summary_more hx h1, af, param_more x h2, ti, param_more x h3, tf, param_more x h4, ni, param_more x h5, mk, h6, cpu, param_more x h7, ts,
    steps_more hx hf h8, h9⟩

/-- C280: line ends behind a FISPACT output. -/
theorem C280_fispact {flt : Str → Option K} {fs fs' : FS} {path c : Str} {n : Nat} (h : fs.node path = some (.file c))
    (h' : fs'.node path = some (.file (c ++ List.replicate n '\n'))) {o : FisOut K} (hf : FispactFile flt (splitlines (univNL c)))
    (hr : (readFisOut flt path fs).1 = .ok o) : (readFisOut flt path fs').1 = .ok o := by
  rw [(C135_paths flt path fs).2.2 c h] at hr
  rw [(C135_paths flt path fs').2.2 _ h']
  obtain ⟨m, hm⟩ := lines_nl c n
  rw [hm]
  refine C296_fispact hf (fun l hl => ?_) hr
  rw [List.eq_of_mem_replicate hl]
  refine ⟨by unfold StepLine; decide, by decide, fun g hg => ?_⟩
  obtain ⟨w, s1, s2, s3, s4, rest, he, -⟩ := hg
  have := congrArg List.length he
  simp at this

end

/-- C280: line ends behind an MCNP output. -/
theorem C280_output [LinearOrder F] {flt : Str → Option F} {minusOne : F} {enum : List Str → List Str} {fs fs' : FS} {path c : Str} {n : Nat}
    (h : fs.node path = some (.file c)) (h' : fs'.node path = some (.file (c ++ List.replicate n '\n'))) {o : McnpOutput.Output F}
    (hf : McnpFile (splitlines (univNL c))) (hr : (McnpOutput.readOutputFile flt minusOne enum path fs).1 = .ok o) :
    (McnpOutput.readOutputFile flt minusOne enum path fs').1 = .ok o := by
  unfold McnpOutput.readOutputFile at hr ⊢
  rw [PyM.bind_ok (getLines_file h)] at hr
  rw [PyM.bind_ok (getLines_file h')]
  obtain ⟨m, hm⟩ := lines_nl c n
  rw [hm]
  refine C296_mcnp hf (fun l hl => ?_) hr
  rw [List.eq_of_mem_replicate hl]
  exact ⟨by decide, by decide, by decide, by decide, by decide, by decide, by unfold TermLine; decide⟩

example : NoMcnp p!"printed on Monday" :=
  ⟨by decide, by decide, by decide, by decide, by decide, by decide, by unfold TermLine; decide⟩
private def exOut : List Str := [p!"1mcnp     version 6     ld=05/08/13                     11/17/26 12:00:00", p!"x", p!"1tally        4        nps =     1000", p!"",
  p!"1tally fluctuation charts"]
example : McnpFile exOut := by
  refine ⟨⟨_, List.mem_cons_self, by decide⟩, fun i a b ha hb h h' => ?_⟩
  match i with
  | 0 => cases ha; revert h; decide
  | 1 => cases ha; revert h; decide
  | 2 => cases hb; revert h'; decide
  | 3 => cases ha; revert h; decide
  | 4 => cases hb
  | k + 5 => cases ha
example : NoFispact p!"printed on Monday" := by
  refine ⟨by unfold StepLine; decide, by decide, ?_⟩
  rintro g ⟨w, s1, s2, s3, s4, rest, he, -⟩
  have h0 : '0' ∈ p!"printed on Monday" := by rw [he]; simp
  revert h0
  decide
example : FispactFile (fun _ => some (0 : ℚ)) exStep := by
  intro a c i t _ _ h h0
  exfalso
  obtain ⟨-, -, ⟨k, l, -, -, e⟩, -⟩ := C134_time_step (fun _ => some (0 : ℚ)) c i t h
  rw [Option.some.injEq] at e
  rw [← e] at h0
  exact lt_irrefl _ h0

-- only the first hundred lines of a file of more than 101 lines are searched for the head: an output of 101 lines with its head in the last of them
private def exLate : List Str := List.replicate 100 [] ++ [p!"1mcnp     version 6     ld=05/08/13                     11/17/26 12:00:00"]
example : McnpOutput.readRunDate exLate = .ok (p!"11/17/26", p!"12:00:00") ∧ McnpOutput.readRunDate (exLate ++ [[]]) = .error .ValueError := by
  decide +kernel

end Props
