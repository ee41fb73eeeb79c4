/- Helper lemmas for the xsdir and ptrac readers. -/
import Verif.Proofs.NeutUtilities
import Verif.Proofs.Dict
import Verif.Model.Readers

namespace Py

/-- Lower-casing yields no new character below the letters. -/
theorem eq_of_toLower_eq {c d : Char} (hd : d.toNat < 97) : c.toLower = d → c = d := by
  unfold Char.toLower
  split
  · next h =>
    intro e
    exfalso
    have h1 := congrArg Char.toNat e
    have h2 := h.1
    have h3 := h.2
    simp only [ge_iff_le, UInt32.le_iff_toNat_le] at h2 h3
    change (c.val + _).toNat = _ at h1
    rw [UInt32.toNat_add] at h1
    have e1 : ('A'.val).toNat = 65 := rfl
    have e2 : ('Z'.val).toNat = 90 := rfl
    have e3 : ('a'.val - 'A'.val).toNat = 32 := rfl
    omega
  · exact id

theorem mem_of_mem_lower {d : Char} {s : Str} (hd : d.toNat < 97) (h : d ∈ lower s) : d ∈ s := by
  unfold lower at h
  rw [List.mem_map] at h
  obtain ⟨c, hc, hc'⟩ := h
  exact eq_of_toLower_eq hd hc' ▸ hc

end Py

namespace Xsdir
open Py NeutUtilities
variable {F : Type}

/-- Assignment made by a line of the directory section. -/
def dirEntry (l : Str) : Option (Str × List Str) :=
  if startsWith (strip l) p!"directory" then none
  else match splitWs l with
    | k :: v :: vs => some (k, v :: vs)
    | _ => none

theorem dirLoop_true (d : Dict Str (List Str)) (ls : List Str) :
    dirLoop true d ls = (ls.filterMap dirEntry).foldl (fun d e => d.set e.1 e.2) d := by
  induction ls generalizing d with
  | nil => rfl
  | cons l ls ih =>
    rw [dirLoop, List.filterMap_cons]
    by_cases h : startsWith (strip l) p!"directory" = true
    · simp [dirEntry, h, ih]
    · simp only [dirEntry, h, if_false, Bool.false_eq_true, if_true]
      rcases hw : splitWs l with _ | ⟨k, _ | ⟨v, vs⟩⟩
      · simp [ih]
      · simp [ih]
      · simp [ih]

theorem dirLoop_false (d : Dict Str (List Str)) (pre ls : List Str)
    (h : ∀ l ∈ pre, startsWith (strip l) p!"directory" = false) :
    dirLoop false d (pre ++ ls) = dirLoop false d ls := by
  induction pre with
  | nil => rfl
  | cons l pre ih =>
    rw [List.cons_append, dirLoop, h l (by simp)]
    simpa using ih (fun l' h' => h l' (by simp [h']))

/-- The key and (unparsed) value in a line of the atomic weight section. -/
def awrEntry (l : Str) : Option (Str × Str) :=
  if startsWith (strip l) p!"atomic" then none
  else match splitWs l with
    | _ :: k :: v :: _ => some (k, v)
    | _ => none

open Classical in
theorem awrLoop_true (flt : Str → Option F) (tail : List Str)
    (htail : tail = [] ∨ ∃ dl rest, tail = dl :: rest ∧ startsWith (strip dl) p!"directory" = true)
    (ls : List Str) : ∀ (d : Dict Str F), (∀ l ∈ ls, startsWith (strip l) p!"directory" = false) →
    awrLoop flt true d (ls ++ tail) =
      if ∃ l ∈ ls, ∃ k v, awrEntry l = some (k, v) ∧ flt v = none then .error .ValueError
      else .ok ((ls.filterMap (fun l => (awrEntry l).bind (fun e => (flt e.2).map (fun x => (e.1, x))))).foldl
        (fun d e => d.set e.1 e.2) d) := by
  induction ls with
  | nil =>
    intro d _
    rcases htail with rfl | ⟨dl, rest, rfl, hd⟩
    · simp [awrLoop]
    · have ha : startsWith (strip dl) p!"atomic" = false := by
        rw [startsWith_iff] at hd
        rw [← Bool.not_eq_true, startsWith_iff]
        obtain ⟨t, ht⟩ := hd
        rw [← ht]
        simp
      simp [awrLoop, ha, hd]
  | cons l ls ih =>
    intro d h
    have hl := h l (by simp)
    have ih := fun d => ih d (fun l' h' => h l' (by simp [h']))
    have skip : awrEntry l = none →
        (if ∃ l' ∈ l :: ls, ∃ k v, awrEntry l' = some (k, v) ∧ flt v = none then Except.error Err.ValueError
          else .ok (((l :: ls).filterMap (fun l => (awrEntry l).bind (fun e => (flt e.2).map (fun x => (e.1, x))))).foldl
            (fun d e => d.set e.1 e.2) d)) =
        (if ∃ l' ∈ ls, ∃ k v, awrEntry l' = some (k, v) ∧ flt v = none then Except.error Err.ValueError
          else .ok ((ls.filterMap (fun l => (awrEntry l).bind (fun e => (flt e.2).map (fun x => (e.1, x))))).foldl
            (fun d e => d.set e.1 e.2) d)) := by
      intro hn
      simp [hn]
    rw [List.cons_append, awrLoop]
    by_cases ha : startsWith (strip l) p!"atomic" = true
    · simp only [ha, if_true]
      rw [ih, skip (by simp [awrEntry, ha])]
    · have ha' : startsWith (strip l) p!"atomic" = false := by simpa using ha
      simp only [ha', hl, Bool.false_eq_true, if_false, if_true, splitWs_strip]
      split
      · next w k v ws hw =>
        have he : awrEntry l = some (k, v) := by simp [awrEntry, ha', hw]
        cases hf : flt v with
        | none =>
          simp only
          rw [if_pos ⟨l, by simp, k, v, he, hf⟩]
        | some x =>
          simp only
          rw [ih]
          have : (∃ l' ∈ l :: ls, ∃ k v, awrEntry l' = some (k, v) ∧ flt v = none) ↔
              (∃ l' ∈ ls, ∃ k v, awrEntry l' = some (k, v) ∧ flt v = none) := by
            constructor
            · rintro ⟨l', hl', k', v', h1, h2⟩
              rcases List.mem_cons.1 hl' with rfl | hl'
              · rw [he] at h1
                simp at h1
                rw [← h1.2, hf] at h2; simp at h2
              · exact ⟨l', hl', k', v', h1, h2⟩
            · rintro ⟨l', hl', r⟩; exact ⟨l', by simp [hl'], r⟩
          simp only [this, List.filterMap_cons, he, hf, Option.bind_some, Option.map_some, List.foldl_cons]
      · next hw =>
        rw [ih, skip]
        unfold awrEntry
        rw [if_neg ha]
        split
        · next w k v ws hw' => exact absurd hw' (hw w k v ws)
        · rfl

theorem awrLoop_false (flt : Str → Option F) (d : Dict Str F) (pre ls : List Str)
    (h : ∀ l ∈ pre, startsWith (strip l) p!"atomic" = false) :
    awrLoop flt false d (pre ++ ls) = awrLoop flt false d ls := by
  induction pre with
  | nil => rfl
  | cons l pre ih =>
    rw [List.cons_append, awrLoop, h l (by simp)]
    simpa using ih (fun l' h' => h l' (by simp [h']))

theorem readXsdir_ok {flt : Str → Option F} {fpath : Str} {fs : FS} {xs : XSDir F}
    (h : (readXsdir flt fpath fs).1 = .ok xs) :
    ∃ lines, (getLines fpath fs).1 = .ok lines ∧ processDatapath lines = .ok xs.datapath ∧
      processAwr flt lines = .ok xs.awr ∧ xs.directory = processDirectory lines ∧
      xs.thermal = processThermal lines ∧ xs.filePath = fpath := by
  unfold readXsdir at h
  have hfs := getLines_snd fpath fs
  cases hg : (getLines fpath fs).1 with
  | error e =>
    rw [PyM.bind_err (e := e) (fs' := fs) (Prod.ext hg hfs)] at h; simp at h
  | ok lines =>
    rw [PyM.bind_ok (a := lines) (fs' := fs) (Prod.ext hg hfs)] at h
    cases hd : processDatapath lines with
    | error e => rw [PyM.bind_err (e := e) (fs' := fs) (by rw [PyM.lift_run, hd])] at h; simp at h
    | ok dp =>
      rw [PyM.bind_ok (a := dp) (fs' := fs) (by rw [PyM.lift_run, hd])] at h
      cases ha : processAwr flt lines with
      | error e => rw [PyM.bind_err (e := e) (fs' := fs) (by rw [PyM.lift_run, ha])] at h; simp at h
      | ok awr =>
        rw [PyM.bind_ok (a := awr) (fs' := fs) (by rw [PyM.lift_run, ha])] at h
        simp only [PyM.pure_run, Except.ok.injEq] at h
        subst h
        exact ⟨lines, rfl, hd, ha, rfl, rfl, rfl⟩

end Xsdir

namespace Ptrac
open Py NeutUtilities
variable {F : Type}

theorem tracksLoop_header {flt : Str → Option F} {hs : List (Option (History F))} {cur : Option (History F)}
    {temp : Option (List Str)} {l : Str} {rest : List Str} {n : Int}
    (h : (stringCleanAndSplit l).length = 2 ∨ (stringCleanAndSplit l).length = 3)
    (hn : pyInt ((stringCleanAndSplit l).headD []) = some n) :
    tracksLoop flt hs cur temp (l :: rest) =
      tracksLoop flt (if cur.isSome then hs ++ [cur] else hs) (some ⟨n, []⟩) temp rest := by
  rw [tracksLoop.eq_def]
  simp only [h, if_true, hn]

theorem tracksLoop_other {flt : Str → Option F} {hs : List (Option (History F))} {cur : Option (History F)}
    {temp : Option (List Str)} {l : Str} {rest : List Str}
    (h : ¬ ((stringCleanAndSplit l).length = 2 ∨ (stringCleanAndSplit l).length = 3))
    (h9 : (stringCleanAndSplit l).length ≠ 9) :
    tracksLoop flt hs cur temp (l :: rest) = tracksLoop flt hs cur (some (stringCleanAndSplit l)) rest := by
  rw [tracksLoop.eq_def]
  simp only [h, if_false, h9]

theorem tracksLoop_nine {flt : Str → Option F} {hs : List (Option (History F))} {cur : History F}
    {t : List Str} {l : Str} {rest : List Str} {ev : Event F}
    (h9 : (stringCleanAndSplit l).length = 9) (he : processEvent flt (t ++ stringCleanAndSplit l) = .ok ev) :
    tracksLoop flt hs (some cur) (some t) (l :: rest) =
      tracksLoop flt hs (some { cur with events := cur.events ++ [ev] }) (some (t ++ stringCleanAndSplit l)) rest := by
  rw [tracksLoop.eq_def]
  simp [h9, he]

theorem tracksLoop_nil {flt : Str → Option F} {hs : List (Option (History F))} {cur : Option (History F)}
    {temp : Option (List Str)} : tracksLoop flt hs cur temp [] = .ok (hs ++ [cur]) := by
  rw [tracksLoop.eq_def]

end Ptrac
