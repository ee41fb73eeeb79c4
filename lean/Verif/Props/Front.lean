/- Property C297: text in front of an output. -/
import Verif.Props.Behind

set_option linter.unusedSectionVars false

namespace Props
open Py NeutUtilities
variable {F : Type}

section
open McnpOutput

/-- Spec: a line in which the reader of MCNP outputs looks for nothing, wherever it stands. -/
structure NoMcnpFront (l : Str) : Prop extends NoMcnp l where
  head : ¬ p!"1mcnp" <+: l
  weight : ¬ p!"    minimum source weight" <+: l
  version : ¬ p!"          Code Name & Version" <+: l

private theorem flf_shift (t : Str) (n i k : Nat) (l : List Str) : findLineFrom t n (i + k) l = (findLineFrom t n i l).map (· + k) := by
  induction l generalizing i with
  | nil => rfl
  | cons a l ih =>
    rw [findLineFrom, findLineFrom]
    by_cases h : a.take n = t
    · rw [if_pos h, if_pos h]; rfl
    · rw [if_neg h, if_neg h, ← ih, Nat.add_right_comm]

private theorem fl_front {t : Str} {n : Nat} {x : List Str} (l : List Str) (hx : ∀ a ∈ x, a.take n ≠ t) :
    findLine t (x ++ l) n = (findLine t l n).map (· + x.length) := by
  unfold findLine
  rw [← flf_shift]
  suffices h : ∀ i, findLineFrom t n i (x ++ l) = findLineFrom t n (i + x.length) l from h 0
  induction x with
  | nil => intro i; rfl
  | cons a x ih =>
    intro i
    rw [List.cons_append, findLineFrom, if_neg (hx a (by simp)), ih (fun b hb => hx b (by simp [hb]))]
    congr 1
    rw [List.length_cons]; omega

private theorem not_take {t l : Str} {n : Nat} (h : ¬ t <+: l) : l.take n ≠ t := by
  rintro rfl
  exact h (List.take_prefix _ _)

private theorem at_front (x l : List Str) (i : Nat) : at' (x ++ l) (i + x.length) = at' l i := by
  unfold at'
  rw [List.getElem?_append_right (by omega), Nat.add_sub_cancel]

private theorem slice_front' (x l : List Str) (i j : Nat) : slice (x ++ l) (i + x.length) (j + x.length) = slice l i j := by
  unfold slice
  rw [Nat.add_comm i, Nat.add_comm j, List.take_length_add_append, List.drop_length_add_append]

private theorem map_bind {α β γ : Type} (x : Except Err α) (f : α → β) (g : β → Except Err γ) : x.map f >>= g = x >>= fun a => g (f a) := by
  cases x <;> rfl

private theorem date_of {a b c : List Str} (hc : ∀ l ∈ c, ¬ p!"1mcnp" <+: l) (h : ∃ l ∈ a, p!"1mcnp" <+: l) :
    (do
      let i ← findLine p!"1mcnp" (c ++ (a ++ b)) 5
      let l ← at' (c ++ (a ++ b)) i
      let ws := stringCleanAndSplit l
      let date ← orErr .IndexError (getI ws (-2))
      let time ← orErr .IndexError (getI ws (-1))
      pure (date, time) : Except Err (Str × Str)) = (do
      let i ← findLine p!"1mcnp" a 5
      let l ← at' a i
      let ws := stringCleanAndSplit l
      let date ← orErr .IndexError (getI ws (-2))
      let time ← orErr .IndexError (getI ws (-1))
      pure (date, time)) := by
  rw [fl_front _ (fun l hl => not_take (hc l hl)), map_bind]
  cases hf : findLine p!"1mcnp" a 5 with
  | error e =>
    exfalso
    obtain ⟨l, hl, hp⟩ := h
    refine ((C03_find_line_error p!"1mcnp" a 5 e).1 hf).2 l hl ?_
    obtain ⟨t, rfl⟩ := hp
    rfl
  | ok i =>
    have h1 : findLine p!"1mcnp" (a ++ b) 5 = .ok i := by
      rw [C03_find_line_ok] at hf ⊢
      obtain ⟨⟨l, hl, ht⟩, hm⟩ := hf
      have hi := (List.getElem?_eq_some_iff.1 hl).1
      refine ⟨⟨l, by rw [List.getElem?_append_left hi]; exact hl, ht⟩, fun j hj => ?_⟩
      have := hm j hj
      dsimp only at this ⊢
      rw [List.getElem?_append_left (by omega)]
      exact this
    have h2 : i < a.length := by
      obtain ⟨⟨l, hl, _⟩, _⟩ := (C03_find_line_ok _ _ _ _).1 hf
      exact (List.getElem?_eq_some_iff.1 hl).1
    rw [h1, ex_ok_bind, ex_ok_bind, at_front]
    have : at' (a ++ b) i = at' a i := by
      unfold at'
      rw [List.getElem?_append_left h2]
    rw [this]

private theorem run_date_front {lines x : List Str} (hx : ∀ l ∈ x, ¬ p!"1mcnp" <+: l) (h : ∃ l ∈ lines.take (100 - x.length), p!"1mcnp" <+: l) :
    readRunDate (x ++ lines) = readRunDate lines := by
  have hk : x.length < 100 := by
    by_contra hn
    obtain ⟨l, hl, _⟩ := h
    rw [Nat.sub_eq_zero_of_le (by omega)] at hl
    simp at hl
  have key : ∀ (c ls : List Str), (∀ l ∈ c, ¬ p!"1mcnp" <+: l) → c.length ≤ x.length → lines.take (100 - x.length) <+: ls → readRunDate (c ++ ls) = (do
      let i ← findLine p!"1mcnp" (lines.take (100 - x.length)) 5
      let l ← at' (lines.take (100 - x.length)) i
      let ws := stringCleanAndSplit l
      let date ← orErr .IndexError (getI ws (-2))
      let time ← orErr .IndexError (getI ws (-1))
      pure (date, time)) := by
    intro c ls hc hcl hls
    unfold readRunDate
    dsimp only
    have hp : ∃ b, (if (c ++ ls).length > 101 then (c ++ ls).take 100 else c ++ ls) = c ++ (lines.take (100 - x.length) ++ b) := by
      split
      · have h3 := hls.take (100 - c.length)
        rw [List.take_take, Nat.min_eq_right (by omega)] at h3
        obtain ⟨b, hb⟩ := h3
        refine ⟨b, ?_⟩
        rw [List.take_append, List.take_of_length_le (by omega), hb]
      · obtain ⟨b, hb⟩ := hls
        exact ⟨b, by rw [hb]⟩
    obtain ⟨b, hb⟩ := hp
    rw [hb]
    exact date_of hc h
  rw [key x lines hx (le_refl _) (List.take_prefix _ _)]
  exact (key [] lines (by simp) (by simp) (List.take_prefix _ _)).symm

/-- The numbers of lines of print tables, `k` lines further down. -/
def shiftTables (k : Nat) (d : Dict Str Nat) : Dict Str Nat := d.map (fun e => (e.1, e.2 + k))

private theorem shift_set (k : Nat) (d : Dict Str Nat) (s : Str) (v : Nat) : shiftTables k (d.set s v) = (shiftTables k d).set s (v + k) := by
  unfold shiftTables Dict.set
  have : (d.map (fun e => (e.1, e.2 + k))).any (fun e => e.1 = s) = d.any (fun e => e.1 = s) := by
    rw [List.any_map]; rfl
  rw [this]
  split
  · rw [List.map_map, List.map_map]
    refine List.map_congr_left (fun e _ => ?_)
    simp only [Function.comp]
    split <;> rfl
  · rw [List.map_append]; rfl

private theorem shift_get (k : Nat) (d : Dict Str Nat) (s : Str) : Dict.get (shiftTables k d) s = (Dict.get d s).map (· + k) := by
  unfold shiftTables Dict.get
  induction d with
  | nil => rfl
  | cons e d ih =>
    rw [List.map_cons]
    by_cases h : e.1 = s
    · simp [h]
    · simpa [h] using ih

private theorem tables_front {lines x : List Str} (hx : ∀ l ∈ x, ¬ p!"print table" <:+: l) :
    getTableDict (x ++ lines) = shiftTables x.length (getTableDict lines) := by
  have key : ∀ (m : List Str) (n : Nat) (d : Dict Str Nat), (∀ l ∈ m, ¬ p!"print table" <:+: l) → (m.zipIdx n).foldl (fun (d : Dict Str Nat) e =>
    if hasSub p!"print table" e.1 then
      let key := (splitOn ' ' e.1).getLastD []
      if key = p!"160" ∨ key = p!"161" ∨ key.length > 3 then d else d.set key e.2
    else d) d = d := by
    intro m
    induction m with
    | nil => intros; rfl
    | cons l m ih =>
      intro n d h
      rw [List.zipIdx_cons, List.foldl_cons, if_neg (by rw [hasSub_iff]; exact h l (by simp))]
      exact ih _ _ (fun y hy => h y (by simp [hy]))
  have key2 : ∀ (m : List Str) (n k : Nat) (d : Dict Str Nat), (m.zipIdx (n + k)).foldl (fun (d : Dict Str Nat) e =>
    if hasSub p!"print table" e.1 then
      let key := (splitOn ' ' e.1).getLastD []
      if key = p!"160" ∨ key = p!"161" ∨ key.length > 3 then d else d.set key e.2
    else d) (shiftTables k d) = shiftTables k ((m.zipIdx n).foldl (fun (d : Dict Str Nat) e =>
    if hasSub p!"print table" e.1 then
      let key := (splitOn ' ' e.1).getLastD []
      if key = p!"160" ∨ key = p!"161" ∨ key.length > 3 then d else d.set key e.2
    else d) d) := by
    intro m
    induction m with
    | nil => intros; rfl
    | cons l m ih =>
      intro n k d
      rw [List.zipIdx_cons, List.foldl_cons, List.zipIdx_cons, List.foldl_cons, ← ih (n + 1) k]
      rw [Nat.add_right_comm]
      congr 1
      dsimp only
      split
      · split
        · rfl
        · rw [shift_set]
      · rfl
  unfold getTableDict
  rw [List.zipIdx_append, List.foldl_append, key _ _ _ hx]
  exact key2 lines 0 x.length []

private theorem table60_front {lines x : List Str} (hx : ∀ l ∈ x, ¬ p!"    minimum source weight" <+: l) (i : Nat) :
    readTable60 (x ++ lines) (i + x.length) = readTable60 lines i := by
  unfold readTable60
  rw [fl_front _ (fun l hl => not_take (hx l hl)), map_bind]
  simp only [slice_front']

private theorem table101_front (lines x : List Str) (i : Nat) : readTable101 (x ++ lines) (i + x.length) = readTable101 lines i := by
  unfold readTable101
  rw [Nat.add_comm i, List.drop_length_add_append]
  congr 1
  funext t
  rw [Nat.add_comm x.length, Nat.add_right_comm, slice_front']

private theorem if_front {rd : List Str → Nat → Except Err (List Str × List (List Str))} {lines x : List Str}
    (hrd : ∀ i, rd (x ++ lines) (i + x.length) = rd lines i) (d : Dict Str Nat) (k : Str) :
    readTableIf rd (x ++ lines) (shiftTables x.length d) k = readTableIf rd lines d k := by
  unfold readTableIf
  rw [shift_get]
  cases Dict.get d k with
  | none => rfl
  | some i => simp only [Option.map_some, hrd]

private theorem rend_front {lines x : List Str} (hx : ∀ l ∈ x, ¬ p!"master set rendezvous nps" <:+: l) :
    getRendevousIndex (x ++ lines) = (getRendevousIndex lines).map (· + x.length) := by
  unfold getRendevousIndex
  rw [List.zipIdx_append, List.filter_append, List.map_append]
  have : x.zipIdx.filter (fun e => hasSub p!"master set rendezvous nps" e.1) = [] := by
    rw [List.filter_eq_nil_iff]
    rintro ⟨l, k⟩ hl h
    exact hx l (List.fst_mem_of_mem_zipIdx hl) (hasSub_iff.1 h)
  rw [this, List.map_nil, List.nil_append, Nat.zero_add, List.map_map]
  have h2 : lines.zipIdx x.length = lines.zipIdx.map (fun e => (e.1, e.2 + x.length)) := by
    rw [List.zipIdx_eq_map_add]
    refine List.map_congr_left (fun e _ => ?_)
    rw [Nat.add_comm]
  rw [h2, List.filter_map, List.map_map]
  rfl

private theorem final_front {lines x : List Str} (hx : ∀ l ∈ x, NoMcnp l) : finalLines (x ++ lines) = finalLines lines ∨
    finalLines (x ++ lines) = x ++ lines ∧ finalLines lines = lines := by
  have ht : findTermLine (x ++ lines) = (findTermLine lines).map (· + x.length) := by
    unfold findTermLine
    rw [fl_front]
    · cases findLine p!"      run terminated " lines 21 <;> rfl
    · intro a ha h
      have h1 : findTermLine [a] = some 0 := by
        unfold findTermLine findLine
        rw [findLineFrom, if_pos h]
      obtain ⟨⟨l, hl, ht⟩, _⟩ := ((C94_term [a]).1 0).1 h1
      cases hl
      exact (hx a ha).term ht
  have hr : findLastRendevous (x ++ lines) = (findLastRendevous lines).map (· + x.length) := by
    unfold findLastRendevous
    dsimp only
    rw [rend_front (fun l hl => (hx l hl).rendevous), List.length_map]
    split
    · rfl
    · unfold getI
      simp only [show ¬ (0 : Int) ≤ -2 by decide, if_false, List.length_map, List.getElem?_map]
      split <;> rfl
  unfold finalLines
  rw [ht, hr]
  cases findTermLine lines with
  | some i => left; simp only [Option.map_some]; rw [Nat.add_comm, List.drop_length_add_append]
  | none =>
    simp only [Option.map_none]
    cases findLastRendevous lines with
    | some i => left; simp only [Option.map_some]; rw [Nat.add_comm, List.drop_length_add_append]
    | none => right; exact ⟨rfl, rfl⟩

private theorem tally_front [LinearOrder F] {flt : Str → Option F} {minusOne : F} {enum : List Str → List Str} {lines x : List Str} {tnum : Str}
    (hx : ∀ l ∈ x, ¬ p!"1tally" <+: l) : readTallyIn flt minusOne enum (x ++ lines) tnum = readTallyIn flt minusOne enum lines tnum := by
  unfold readTallyIn
  rw [fl_front, map_bind]
  · have h1 : ∀ r, r + x.length + 1 = r + 1 + x.length := fun r => by omega
    have h2 : ∀ r, r + x.length + 2 = r + 2 + x.length := fun r => by omega
    have h3 : ∀ r o, r + x.length + o = r + o + x.length := fun r o => by omega
    have h4 : ∀ r, (x ++ lines).drop (r + x.length) = lines.drop r := fun r => by rw [Nat.add_comm, List.drop_length_add_append]
    simp only [h1, h2, h3, at_front, h4]
  · intro a ha h
    refine hx a ha ?_
    refine List.IsPrefix.trans ?_ (List.take_prefix 15 a)
    rw [h, List.append_assoc]
    exact List.prefix_append _ _

/-- C297, MCNP: lines in front of an output in which the reader looks for nothing change what is read in two things only: the numbers of the lines
    of print tables, which move with them, and the version, which is lost. The date must still stand in the first hundred lines. -/
theorem C297_mcnp_partial [LinearOrder F] (flt : Str → Option F) (minusOne : F) (enum : List Str → List Str) (path : Str) {lines x : List Str}
    (hx : ∀ l ∈ x, NoMcnpFront l) (hx0 : x ≠ []) (hh : ∃ l ∈ lines.take (100 - x.length), p!"1mcnp" <+: l) :
    readOutputLines flt minusOne enum path (x ++ lines) =
      (readOutputLines flt minusOne enum path lines).map (fun o => { o with version := none, tables := shiftTables x.length o.tables }) := by
  have hc : readCommentsWarnings (x ++ lines) = readCommentsWarnings lines := by
    unfold readCommentsWarnings
    have h1 : x.filter (fun l => startsWith l p!"  comment.") = [] := by
      rw [List.filter_eq_nil_iff]
      intro l hl h
      exact (hx l hl).comment (startsWith_iff.1 h)
    have h2 : x.filter (fun l => startsWith l p!"  warning.") = [] := by
      rw [List.filter_eq_nil_iff]
      intro l hl h
      exact (hx l hl).warning (startsWith_iff.1 h)
    rw [List.filter_append, List.filter_append, h1, h2, List.nil_append, List.nil_append]
  have hfat : checkFatal (x ++ lines) = checkFatal lines := by
    unfold checkFatal
    rw [List.any_append]
    have : x.any (fun l => hasSub p!"fatal" (lower l)) = false := by
      rw [List.any_eq_false]
      intro l hl h
      exact (hx l hl).fatal (hasSub_iff.1 h)
    rw [this, Bool.false_or]
  have hv : readVersion (x ++ lines) = none := by
    cases x with
    | nil => exact absurd rfl hx0
    | cons l ls =>
      rw [List.cons_append, readVersion, if_neg (not_take (hx l (by simp)).version)]
  have hn : getTallyNums (x ++ lines) = getTallyNums lines := by
    unfold getTallyNums
    rw [List.filter_append]
    have : x.filter (fun l => l.take 11 = p!"1tally     ") = [] := by
      rw [List.filter_eq_nil_iff]
      intro l hl h
      refine (hx l hl).tally ?_
      have h2 : l.take 11 = p!"1tally     " := by simpa using h
      have h3 : p!"1tally     " <+: l := by rw [← h2]; exact List.take_prefix _ _
      exact List.IsPrefix.trans (by decide) h3
    rw [this, List.nil_append]
  have hr : countRendevous (x ++ lines) = countRendevous lines := by
    unfold countRendevous
    rw [rend_front (fun l hl => (hx l hl).rendevous), List.length_map]
  have ht : readTally flt minusOne enum (x ++ lines) = readTally flt minusOne enum lines := by
    funext n
    unfold readTally
    rcases final_front (lines := lines) (fun l hl => (hx l hl).toNoMcnp) with h | ⟨h, h'⟩
    · rw [h]
    · rw [h, h']
      exact tally_front (fun l hl => (hx l hl).tally)
  unfold readOutputLines
  rw [run_date_front (fun l hl => (hx l hl).head) hh, tables_front (fun l hl => (hx l hl).table), hc, hfat, hv, hn, hr, ht]
  dsimp only
  rw [if_front (table60_front (fun l hl => (hx l hl).weight)), if_front (table101_front lines x)]
  cases readRunDate lines with
  | error e => rfl
  | ok dt =>
    cases readTableIf readTable60 lines (getTableDict lines) p!"60" with
    | error e => rfl
    | ok t60 =>
      cases readTableIf readTable101 lines (getTableDict lines) p!"101" with
      | error e => rfl
      | ok t101 =>
        cases getTallyNums lines with
        | error e => rfl
        | ok tls =>
          simp only [ex_ok_bind]
          cases (enum tls).mapM (readTally flt minusOne enum lines) with
          | error e => rfl
          | ok ts => rfl

/-- C297, violated for the version: it is read from the first line of the file only, and a line in front of it, even an empty one, hides it. -/
theorem C297_version_violated : readVersion [p!"          Code Name & Version = MCNP, 6.2"] = some p!"MCNP, 6.2" ∧
    readVersion [[], p!"          Code Name & Version = MCNP, 6.2"] = none := by decide +kernel

private def exOut : List Str := [p!"          Code Name & Version = MCNP, 6.2", p!"1mcnp     version 6     ld=02/20/18                     10/19/19 10:00:00"]
private theorem front_of {l : Str} (h : ∀ s ∈ [p!"print table", p!"1tally", p!"  comment.", p!"  warning.", p!"master set rendezvous nps", p!"1mcnp",
    p!"    minimum source weight", p!"          Code Name & Version"], ¬ s <:+: l) (h1 : ¬ p!"fatal" <:+: lower l) (h2 : ¬ TermLine l) : NoMcnpFront l where
  table := h _ (by simp)
  tally hp := h _ (by simp) hp.isInfix
  comment hp := h _ (by simp) hp.isInfix
  warning hp := h _ (by simp) hp.isInfix
  fatal := h1
  rendevous := h _ (by simp)
  term := h2
  head hp := h _ (by simp) hp.isInfix
  weight hp := h _ (by simp) hp.isInfix
  version hp := h _ (by simp) hp.isInfix
example : NoMcnpFront p!"mpirun: 4 processes" ∧ ∃ l ∈ exOut.take (100 - 1), p!"1mcnp" <+: l := by
  refine ⟨front_of (by decide +kernel) (by decide +kernel) (by unfold TermLine; decide +kernel), exOut[1], by decide, by decide⟩
example : (readOutputLines (fun _ => some (0 : Nat)) 0 id [] exOut).map (fun o => (o.version, o.date)) = .ok (some p!"MCNP, 6.2", p!"10/19/19") ∧
    (readOutputLines (fun _ => some (0 : Nat)) 0 id [] (p!"mpirun: 4 processes" :: exOut)).map (fun o => (o.version, o.date)) = .ok (none, p!"10/19/19") := by
  decide +kernel

end

section
open FispactOutput
variable {K : Type} [Field K] [LinearOrder K] [IsStrictOrderedRing K]

/-- Spec: the line that names FISPACT 07 stands among the first fifty lines, also behind `k` further ones, or not at all. -/
def VersionSeen (k : Nat) (lines : List Str) : Prop :=
  (∃ l ∈ lines.take (50 - k), p!"FISPACT VERSION 07.0/0" <:+: l) ∨ ∀ l ∈ lines.take 50, ¬ p!"FISPACT VERSION 07.0/0" <:+: l

/-- C297, FISPACT: lines in front of an output that contain nothing the reader looks for change nothing in what is read. -/
theorem C297_fispact_partial (flt : Str → Option K) (path : Str) {x lines : List Str} {o : FisOut K} (hx : ∀ l ∈ x, StepText l) (hs : ∀ l ∈ x, ¬ StepLine l)
    (hn : ∀ l ∈ x, ¬ p!"FISPACT VERSION 07.0/0" <:+: l) (hv : VersionSeen x.length lines) :
    readLines flt path (x ++ lines) = .ok o ↔ readLines flt path lines = .ok o := by
  refine fispact_front flt path hx hs ?_
  have hiff : ∀ data : List Str, ((data.take 50).find? (fun s => hasSub p!"FISPACT VERSION 07.0/0" s)).isSome = true ↔
      ∃ l ∈ data.take 50, p!"FISPACT VERSION 07.0/0" <:+: l := by
    intro data
    rw [List.find?_isSome]
    exact exists_congr fun l => and_congr_right fun _ => hasSub_iff
  have : (∃ l ∈ (x ++ lines).take 50, p!"FISPACT VERSION 07.0/0" <:+: l) ↔ ∃ l ∈ lines.take 50, p!"FISPACT VERSION 07.0/0" <:+: l := by
    rw [List.take_append]
    constructor
    · rintro ⟨l, hl, h⟩
      rcases List.mem_append.1 hl with hl | hl
      · exact absurd h (hn l (List.mem_of_mem_take hl))
      · exact ⟨l, (List.take_subset_take_left lines (by omega : 50 - x.length ≤ 50)) hl, h⟩
    · rintro ⟨l, hl, h⟩
      rcases hv with ⟨l', hl', h'⟩ | hv
      · exact ⟨l', List.mem_append_right _ hl', h'⟩
      · exact absurd h (hv l hl)
  unfold checkFispVersion
  exact if_congr ((hiff _).trans (this.trans (hiff _).symm)) rfl rfl

/-- C297, violated where the lines in front move the version of FISPACT 07 out of the first fifty lines: the file is then taken for one of
    FISPACT-II. -/
theorem C297_fispact_violated (lines : List Str) :
    checkFispVersion (p!"FISPACT VERSION 07.0/0" :: lines) = p!"FISP07" ∧
    checkFispVersion (List.replicate 50 [] ++ p!"FISPACT VERSION 07.0/0" :: lines) = p!"FISPACT-II" := by
  constructor
  · unfold checkFispVersion
    rw [if_pos]
    rw [List.take_succ_cons, List.find?_cons_of_pos (by decide)]
    rfl
  · unfold checkFispVersion
    rw [List.take_append_of_le_length (by simp), if_neg (by decide)]

example : VersionSeen 49 [p!"FISPACT VERSION 07.0/0"] := .inl ⟨_, by simp, List.infix_refl _⟩
example : ¬ StepLine p!"srun: job 17" ∧ ¬ p!"FISPACT VERSION 07.0/0" <:+: p!"srun: job 17" := by unfold StepLine; decide +kernel
example : StepText p!"srun: job 17" := by
  refine ⟨fun f h => ?_, ?_, by decide +kernel⟩
  · cases f <;> cases h
  · rintro g ⟨w, s1, s2, s3, s4, rest, h, -⟩
    have : 'M' ∈ p!"srun: job 17" := by rw [h]; simp
    revert this; decide

end

end Props
