/-
C277: files that were cut off.
-/
import Verif.Props.MeshtalReader
import Verif.Props.OutputUtilities
import Verif.Props.Readers
import Verif.Props.FispactOutput3
import Verif.Props.McnpOutput
import Verif.Props.MeshOrder
import Verif.Proofs.Except

set_option linter.unusedSectionVars false

namespace Props
open Py NeutUtilities

/-- The lines of the second text are the first `k` lines of the first one. -/
def CutAt (k : Nat) (c c' : Str) : Prop := splitlines (univNL c') = (splitlines (univNL c)).take k

section printlib
open Printlib
variable {F : Type}

private theorem univNL_prefix {c' c : Str} (h : c' <+: c) : univNL c' <+: univNL c := by
  obtain ⟨r, rfl⟩ := h
  induction c' using univNL.induct with
  | case1 => exact List.nil_prefix
  | case2 cs ih =>
    simp only [List.cons_append, univNL]
    exact List.cons_prefix_cons.2 ⟨rfl, ih⟩
  | case3 c cs hc ih =>
    by_cases h : c = '\r'
    · subst h
      cases cs with
      | nil =>
        cases r with
        | nil => simp
        | cons x r =>
          by_cases hx : x = '\n'
          · subst hx; simp [univNL]
          · have e : univNL (['\r'] ++ x :: r) = '\n' :: univNL (x :: r) := by
              simp only [List.cons_append, List.nil_append]
              rw [univNL]
              · simp
              · simpa using hx
            rw [e]; simp [univNL]
      | cons x cs =>
        have hx : x ≠ '\n' := by rintro rfl; exact hc cs rfl rfl
        have e : ∀ t, univNL ('\r' :: x :: t) = '\n' :: univNL (x :: t) := by
          intro t
          rw [univNL]
          · simp
          · simpa using hx
        rw [List.cons_append, List.cons_append, e, e]
        exact List.cons_prefix_cons.2 ⟨rfl, ih⟩
    · rw [List.cons_append, univNL_cons h, univNL_cons h]
      exact List.cons_prefix_cons.2 ⟨rfl, ih⟩

/-- The lines of a text that was cut off: complete lines, and at most one that is not complete. -/
private theorem keepLines_prefix {c' c : Str} (h : c' <+: c) :
    ∃ a, keepLines c' <+: keepLines c ∨ ∃ p q r, keepLines c' = a ++ [p] ∧ keepLines c = a ++ q :: r ∧ p <+: q := by
  obtain ⟨r, rfl⟩ := h
  induction c' with
  | nil => exact ⟨[], .inl (by simp [keepLines])⟩
  | cons x cs ih =>
    obtain ⟨a, ih⟩ := ih
    simp only [List.cons_append, keepLines]
    by_cases hx : x = '\n'
    · simp only [hx, if_true]
      rcases ih with h | ⟨p, q, t, h1, h2, h3⟩
      · exact ⟨[], .inl (List.cons_prefix_cons.2 ⟨rfl, h⟩)⟩
      · exact ⟨['\n'] :: a, .inr ⟨p, q, t, by rw [h1]; rfl, by rw [h2]; rfl, h3⟩⟩
    · simp only [hx, if_false]
      rcases ih with h | ⟨p, q, t, h1, h2, h3⟩
      · cases hk : keepLines cs with
        | nil =>
          refine ⟨[], .inr ?_⟩
          cases hk' : keepLines (cs ++ r) with
          | nil => exact ⟨[x], [x], [], rfl, rfl, List.prefix_refl _⟩
          | cons l ls => exact ⟨[x], x :: l, ls, rfl, rfl, by simp⟩
        | cons l ls =>
          rw [hk] at h
          cases hk' : keepLines (cs ++ r) with
          | nil => rw [hk'] at h; simp at h
          | cons l' ls' =>
            rw [hk', List.cons_prefix_cons] at h
            exact ⟨[], .inl (List.cons_prefix_cons.2 ⟨by rw [h.1], h.2⟩)⟩
      · rw [h1, h2]
        cases a with
        | nil => exact ⟨[], .inr ⟨x :: p, x :: q, t, rfl, rfl, List.cons_prefix_cons.2 ⟨rfl, h3⟩⟩⟩
        | cons l a => exact ⟨(x :: l) :: a, .inr ⟨p, q, t, rfl, rfl, h3⟩⟩

private theorem scan_more (flt : Str → Option F) {a b : List Str} {t : List (Row F)} : ∀ (s : Printlib.State F),
    scan flt s a = .ok (some t) → scan flt s (a ++ b) = .ok (some t) := by
  induction a with
  | nil => intro s h; cases h
  | cons l a ih =>
    intro s h
    rw [List.cons_append]
    simp only [scan] at h ⊢
    split at h
    · rename_i h1; rw [if_pos h1]; exact h
    · rename_i h1
      rw [if_neg h1]
      split at h
      · rename_i h2
        rw [if_pos h2]
        split at h
        · exact ih _ h
        · cases h
      · rename_i h2
        rw [if_neg h2]
        split at h
        · rename_i h3; rw [if_pos h3]; exact ih _ h
        · rename_i h3
          rw [if_neg h3]
          split at h
          · rename_i h4; rw [if_pos h4]; exact ih _ h
          · rename_i h4
            rw [if_neg h4]
            split at h
            · rename_i h5; rw [if_pos h5]; exact ih _ h
            · rename_i h5; rw [if_neg h5]; exact ih _ h

private theorem scan_line (flt : Str → Option F) {a r : List Str} {p q : Str} {t : List (Row F)} (hp : p <+: q) : ∀ (s : Printlib.State F),
    scan flt s (a ++ [p]) = .ok (some t) → scan flt s (a ++ q :: r) = .ok (some t) := by
  induction a with
  | nil =>
    intro s h
    simp only [List.nil_append, scan] at h ⊢
    have hr : ∀ s : Printlib.State F, scan flt s [] ≠ .ok (some t) := by intro s h; cases h
    split at h
    · rename_i h1
      rw [if_pos (hasSub_iff.2 ((hasSub_iff.1 h1).trans hp.isInfix))]; exact h
    · split at h
      · split at h <;> cases h
      · split at h
        · cases h
        · split at h
          · cases h
          · split at h <;> cases h
  | cons l a ih =>
    intro s h
    rw [List.cons_append] at h ⊢
    simp only [scan] at h ⊢
    split at h
    · rename_i h1; rw [if_pos h1]; exact h
    · rename_i h1
      rw [if_neg h1]
      split at h
      · rename_i h2
        rw [if_pos h2]
        split at h
        · exact ih _ h
        · cases h
      · rename_i h2
        rw [if_neg h2]
        split at h
        · rename_i h3; rw [if_pos h3]; exact ih _ h
        · rename_i h3
          rw [if_neg h3]
          split at h
          · rename_i h4; rw [if_pos h4]; exact ih _ h
          · rename_i h4
            rw [if_neg h4]
            split at h
            · rename_i h5; rw [if_pos h5]; exact ih _ h
            · rename_i h5; rw [if_neg h5]; exact ih _ h

/-- C277 (part that holds): a list of emission lines that was cut off at any character is refused, or gives the table of the whole file. -/
theorem C277_printlib_partial (flt : Str → Option F) (path c c' : Str) (h : c' <+: c) (fs fs' : FS) (hf : fs.node path = some (.file c))
    (hf' : fs'.node path = some (.file c')) (t : List (Row F)) (hr : Printlib.read flt path fs' = (.ok t, fs')) :
    Printlib.read flt path fs = (.ok t, fs) := by
  unfold Printlib.read at hr ⊢
  rw [hf'] at hr
  rw [hf]
  simp only at hr ⊢
  have key : scan flt ⟨[], none, false, false⟩ (keepLines (univNL c)) = .ok (some t) := by
    split at hr
    · cases hr
    · cases hr
    · rename_i rows hs
      cases hr
      obtain ⟨a, h | ⟨p, q, r, h1, h2, h3⟩⟩ := keepLines_prefix (univNL_prefix h)
      · obtain ⟨b, hb⟩ := h
        rw [← hb]; exact scan_more flt _ hs
      · rw [h1] at hs; rw [h2]; exact scan_line flt h3 _ hs
  rw [key]

example : (Printlib.read exFltWs p!"f" (exFS (exPrintlib.dropLast))).1.toOption.isSome = (Printlib.read exFltWs p!"f" (exFS exPrintlib)).1.toOption.isSome ∧
    (Printlib.read exFltWs p!"f" (exFS (exPrintlib.take 150))).1.toOption.isSome = false := by decide +kernel

end printlib

/-- C277 (part that holds): an output of FISPACT without the line with the time of the run, which is at its end, is refused. -/
theorem C277_fispact_partial {K : Type} [Field K] [LinearOrder K] [IsStrictOrderedRing K] [FloorRing K] (flt : Str → Option K) (path : Str) (lines : List Str)
    (hno : ∀ l ∈ lines, ¬ p!"fispact run time" <:+: l ∧ ¬ p!"CPU Time used for case" <:+: l) :
    ∃ e, FispactOutput.readLines flt path lines = .error e := by
  cases h : FispactOutput.readLines flt path lines with
  | error e => exact ⟨e, rfl⟩
  | ok o =>
    exfalso
    unfold FispactOutput.readLines at h
    simp only [ex_bind_ok] at h
    obtain ⟨_, _, _, _, _, _, _, _, _, _, _, _, cpu, hc, _⟩ := h
    have : FispactOutput.readParameter flt lines (if FispactOutput.isFisII lines then p!"fispact run time" else p!"CPU Time used for case") = .error .ValueError := by
      rw [C76_error]
      refine ⟨rfl, .inl fun l hl => ?_⟩
      split
      · exact (hno l hl).1
      · exact (hno l hl).2
    rw [this] at hc
    cases hc

example : ∀ l ∈ [p!"Mean flux = 1", p!" FISPACT"], ¬ p!"fispact run time" <:+: l ∧ ¬ p!"CPU Time used for case" <:+: l := by
  intro l hl
  simp only [List.mem_cons, List.not_mem_nil, or_false] at hl
  rcases hl with rfl | rfl <;> exact ⟨hasSub_false_iff.1 (by decide +kernel), hasSub_false_iff.1 (by decide +kernel)⟩

/-- C277 (part that holds): an output of MCNP cut off before the line with the time of the computation is not reduced, and nothing is written. -/
theorem C277_reduce_partial (fs' : FS) (infile ofile c c' : Str) (before after : List Str) (hit : Str) (k : Nat)
    (hf' : fs'.node infile = some (.file c')) (hl : splitlines (univNL c) = before ++ hit :: after) (hfirst : ∀ l ∈ before, ¬ termText <+: l)
    (hk : k ≤ before.length) (hc : CutAt k c c') :
    OfileReduce.reduceOfile infile ofile fs' = (.error .ValueError, fs') := by
  refine C19_missing fs' infile ofile _ (by rw [getLines_file hf']) fun l hl' => ?_
  rw [hc, hl, List.take_append_of_le_length hk] at hl'
  exact hfirst l (List.mem_of_mem_take hl')

example : CutAt 1 (p!"a\nb" ++ termText) p!"a\n" := by unfold CutAt; decide +kernel

section ptrac
open Ptrac
variable {F : Type}

/-- The second history is the first one and what came behind it. -/
def Begun : Option (History F) → Option (History F) → Prop
  | none, _ => True
  | some h, some h' => h.nps = h'.nps ∧ h.events <+: h'.events
  | some _, none => False

private theorem begun_refl (x : Option (History F)) : Begun x x := by
  cases x with
  | none => trivial
  | some h => exact ⟨rfl, List.prefix_refl _⟩

private theorem tracks_begun (flt : Str → Option F) (b : List Str) : ∀ (hs : List (Option (History F))) cur temp r,
    tracksLoop flt hs cur temp b = .ok r → ∃ y rest, r = hs ++ y :: rest ∧ Begun cur y := by
  induction b with
  | nil =>
    intro hs cur temp r h
    cases h
    exact ⟨cur, [], rfl, begun_refl _⟩
  | cons l b ih =>
    intro hs cur temp r h
    simp only [tracksLoop] at h
    split at h
    · split at h
      · cases h
      · obtain ⟨y, rest, hr, hb⟩ := ih _ _ _ _ h
        cases cur with
        | none => exact ⟨y, rest, by simpa using hr, trivial⟩
        | some x => exact ⟨some x, y :: rest, by simpa using hr, begun_refl _⟩
    · split at h
      · split at h
        · cases h
        · split at h
          · cases h
          · cases cur with
            | none => cases h
            | some x =>
              obtain ⟨y, rest, hr, hb⟩ := ih _ _ _ _ h
              refine ⟨y, rest, hr, ?_⟩
              cases y with
              | none => exact hb
              | some y => exact ⟨hb.1, (List.prefix_append _ _).trans hb.2⟩
      · exact ih _ _ _ _ h

private theorem tracks_cut (flt : Str → Option F) (b a : List Str) : ∀ (hs : List (Option (History F))) cur temp r,
    tracksLoop flt hs cur temp (a ++ b) = .ok r →
      ∃ r0 x y rest, tracksLoop flt hs cur temp a = .ok (r0 ++ [x]) ∧ r = r0 ++ y :: rest ∧ Begun x y := by
  induction a with
  | nil =>
    intro hs cur temp r h
    obtain ⟨y, rest, hr, hb⟩ := tracks_begun flt b _ _ _ _ h
    exact ⟨hs, cur, y, rest, rfl, hr, hb⟩
  | cons l a ih =>
    intro hs cur temp r h
    rw [List.cons_append] at h
    simp only [tracksLoop] at h ⊢
    split at h
    · rename_i h1
      rw [if_pos h1]
      split at h
      · cases h
      · exact ih _ _ _ _ h
    · rename_i h1
      rw [if_neg h1]
      split at h
      · rename_i h2
        rw [if_pos h2]
        split at h
        · cases h
        · split at h
          · cases h
          · cases cur with
            | none => cases h
            | some x => exact ih _ _ _ _ h
      · rename_i h2
        rw [if_neg h2]
        exact ih _ _ _ _ h

/-- C277 fails: a file of tracks that was cut off behind any of its lines is read without an error; the last history may have lost events, and those behind it are missing. -/
theorem C277_ptrac_violated (flt : Str → Option F) (path c c' : Str) (k : Nat) (hc : CutAt k c c') (fs fs' : FS) (hf : fs.node path = some (.file c))
    (hf' : fs'.node path = some (.file c')) (r : List (Option (History F))) (h : readPtrac flt path fs = (.ok r, fs)) :
    ∃ r0 x y rest, readPtrac flt path fs' = (.ok (r0 ++ [x]), fs') ∧ r = r0 ++ y :: rest ∧ Begun x y := by
  unfold readPtrac at h ⊢
  rw [PyM.bind_ok (getLines_file hf)] at h
  rw [PyM.bind_ok (getLines_file hf'), hc]
  simp only [PyM.lift, Prod.mk.injEq, removeHeader, processTracks] at h ⊢
  have e : (splitlines (univNL c)).drop 9 = ((splitlines (univNL c)).take k).drop 9 ++ ((splitlines (univNL c)).drop 9).drop (k - 9) := by
    rw [List.drop_take, List.take_append_drop]
  rw [e] at h
  obtain ⟨r0, x, y, rest, h1, h2, h3⟩ := tracks_cut flt _ _ _ _ _ _ h.1
  exact ⟨r0, x, y, rest, ⟨h1, trivial⟩, h2, h3⟩

/-- Two histories with one event each. -/
private def twoTracks : Str := p!"1\n2\n3\n4\n5\n6\n7\n8\n9\n  7  1000\n 1 2 3 4 5 6 7\n 8 9 10  11 12 13 14 15 16\n  8  1000\n 1 2 3 4 5 6 7\n 8 9 10  11 12 13 14 15 16\n"

example : (readPtrac pyNat p!"f" (exFS twoTracks)).1.map (·.map (·.map (fun h => (h.nps, h.events.length)))) = .ok [some (7, 1), some (8, 1)] ∧
    (readPtrac pyNat p!"f" (exFS (twoTracks.take 28))).1.map (·.map (·.map (fun h => (h.nps, h.events.length)))) = .ok [some (7, 0)] ∧
    CutAt 10 twoTracks (twoTracks.take 28) := by
  unfold CutAt
  decide +kernel

end ptrac

section xsdir
open Xsdir
variable {F : Type}

private theorem awr_keeps (flt : Str → Option F) (b : List Str) : ∀ (i : Bool) (d d' : Dict Str F), awrLoop flt i d b = .ok d' →
    ∀ z, (d.get z).isSome → (d'.get z).isSome := by
  induction b with
  | nil => intro i d d' h; cases h; exact fun _ h => h
  | cons l b ih =>
    intro i d d' h z hz
    simp only [awrLoop] at h
    split at h
    · exact ih _ _ _ h z hz
    · split at h
      · split at h
        · cases h; exact hz
        · split at h
          · split at h
            · cases h
            · refine ih _ _ _ h z ?_
              rw [Dict.get_set]; split
              · rfl
              · exact hz
          · exact ih _ _ _ h z hz
      · exact ih _ _ _ h z hz

private theorem awr_cut (flt : Str → Option F) (b a : List Str) : ∀ (i : Bool) (d d' : Dict Str F), awrLoop flt i d (a ++ b) = .ok d' →
    ∃ d1, awrLoop flt i d a = .ok d1 ∧ ∀ z, (d1.get z).isSome → (d'.get z).isSome := by
  induction a with
  | nil => intro i d d' h; exact ⟨d, rfl, awr_keeps flt b _ _ _ h⟩
  | cons l a ih =>
    intro i d d' h
    rw [List.cons_append] at h
    simp only [awrLoop] at h ⊢
    split at h
    · rename_i h1; rw [if_pos h1]; exact ih _ _ _ h
    · rename_i h1
      rw [if_neg h1]
      split at h
      · rename_i h2
        rw [if_pos h2]
        split at h
        · rename_i h3; rw [if_pos h3]; cases h; exact ⟨d, rfl, fun _ h => h⟩
        · rename_i h3
          rw [if_neg h3]
          split at h
          · split at h
            · cases h
            · exact ih _ _ _ h
          · exact ih _ _ _ h
      · rename_i h2
        rw [if_neg h2]
        exact ih _ _ _ h

private theorem dir_keeps (b : List Str) : ∀ (i : Bool) (d : Dict Str (List Str)) z, (d.get z).isSome → ((dirLoop i d b).get z).isSome := by
  induction b with
  | nil => intro i d z h; exact h
  | cons l b ih =>
    intro i d z hz
    simp only [dirLoop]
    split
    · exact ih _ _ z hz
    · split
      · split
        · refine ih _ _ z ?_
          rw [Dict.get_set]; split
          · rfl
          · exact hz
        · exact ih _ _ z hz
      · exact ih _ _ z hz

private theorem dir_cut (b a : List Str) : ∀ (i : Bool) (d : Dict Str (List Str)) z, ((dirLoop i d a).get z).isSome →
    ((dirLoop i d (a ++ b)).get z).isSome := by
  induction a with
  | nil => intro i d z h; exact dir_keeps b _ _ z h
  | cons l a ih =>
    intro i d z hz
    rw [List.cons_append]
    simp only [dirLoop] at hz ⊢
    split at hz
    · rename_i h; rw [if_pos h]; exact ih _ _ z hz
    · rename_i h
      rw [if_neg h]
      split at hz
      · rename_i h; rw [if_pos h]; split at hz <;> exact ih _ _ z hz
      · rename_i h; rw [if_neg h]; exact ih _ _ z hz

private theorem th_keeps (b : List Str) : ∀ (i : Bool) (d : Dict Str (List Str)) z, (d.get z).isSome → ((thermalLoop i d b).get z).isSome := by
  induction b with
  | nil => intro i d z h; exact h
  | cons l b ih =>
    intro i d z hz
    simp only [thermalLoop]
    split
    · exact ih _ _ z hz
    · split
      · exact ih _ _ z hz
      · split
        · split
          · refine ih _ _ z ?_
            rw [Dict.get_set]; split
            · rfl
            · exact hz
          · exact ih _ _ z hz
        · exact ih _ _ z hz

private theorem th_cut (b a : List Str) : ∀ (i : Bool) (d : Dict Str (List Str)) z, ((thermalLoop i d a).get z).isSome →
    ((thermalLoop i d (a ++ b)).get z).isSome := by
  induction a with
  | nil => intro i d z h; exact th_keeps b _ _ z h
  | cons l a ih =>
    intro i d z hz
    rw [List.cons_append]
    simp only [thermalLoop] at hz ⊢
    split at hz
    · rename_i h; rw [if_pos h]; exact ih _ _ z hz
    · rename_i h
      rw [if_neg h]
      split at hz
      · rename_i h; rw [if_pos h]; exact ih _ _ z hz
      · rename_i h
        rw [if_neg h]
        split at hz
        · rename_i h; rw [if_pos h]; split at hz <;> exact ih _ _ z hz
        · rename_i h; rw [if_neg h]; exact ih _ _ z hz

private theorem path_cut (b a : List Str) : ∀ v, processDatapath (a ++ b) = .ok v → processDatapath a = .ok none ∨ processDatapath a = .ok v := by
  induction a with
  | nil => intro v _; exact .inl rfl
  | cons l a ih =>
    intro v h
    rw [List.cons_append] at h
    simp only [processDatapath] at h ⊢
    split at h
    · rename_i h1; rw [if_pos h1]; exact .inr h
    · rename_i h1; rw [if_neg h1]; exact ih v h

/-- C277 fails: an xsdir file that was cut off behind any of its lines is read without an error; nuclides are missing from the tables. -/
theorem C277_xsdir_violated (flt : Str → Option F) (path c c' : Str) (k : Nat) (hc : CutAt k c c') (fs fs' : FS) (hf : fs.node path = some (.file c))
    (hf' : fs'.node path = some (.file c')) (x : XSDir F) (h : readXsdir flt path fs = (.ok x, fs)) :
    ∃ x', readXsdir flt path fs' = (.ok x', fs') ∧ (x'.datapath = none ∨ x'.datapath = x.datapath) ∧ (∀ z, (x'.awr.get z).isSome → (x.awr.get z).isSome) ∧
      (∀ z, (x'.directory.get z).isSome → (x.directory.get z).isSome) ∧ ∀ z, (x'.thermal.get z).isSome → (x.thermal.get z).isSome := by
  unfold readXsdir at h ⊢
  rw [PyM.bind_ok (getLines_file hf)] at h
  rw [PyM.bind_ok (getLines_file hf'), hc]
  simp only [bind, PyM.bind, pure, PyM.pure, PyM.lift, processAwr] at h ⊢
  have e := (List.take_append_drop k (splitlines (univNL c))).symm
  revert h
  cases h1 : processDatapath (splitlines (univNL c)) with
  | error e => simp
  | ok v =>
    cases h2 : awrLoop flt false [] (splitlines (univNL c)) with
    | error e => simp
    | ok aw =>
      simp only [Prod.mk.injEq, Except.ok.injEq, and_true]
      rintro rfl
      rw [e] at h1 h2
      obtain ⟨d1, h3, h4⟩ := awr_cut flt _ _ _ _ _ h2
      have h5 : ∃ v', processDatapath ((splitlines (univNL c)).take k) = .ok v' ∧ (v' = none ∨ v' = v) := by
        rcases path_cut _ _ _ h1 with h | h
        · exact ⟨_, h, .inl rfl⟩
        · exact ⟨_, h, .inr rfl⟩
      obtain ⟨v', h5, h6⟩ := h5
      rw [h5, h3]
      refine ⟨_, rfl, h6, h4, fun z hz => ?_, fun z hz => ?_⟩
      · simp only [processDirectory] at hz ⊢
        rw [e]; exact dir_cut _ _ _ _ z hz
      · simp only [processThermal] at hz ⊢
        rw [e]; exact th_cut _ _ _ _ z hz

example : (readXsdir pyNat p!"f" (exFS exXsdir)).1.map (fun x => (x.awr.keys, x.directory.keys)) = .ok ([p!"1001"], [p!"1001.80c", p!"8016.80c"]) ∧
    (readXsdir pyNat p!"f" (exFS (exXsdir.take 38))).1.map (fun x => (x.awr.keys, x.directory.keys)) = .ok ([], []) ∧
    CutAt 2 exXsdir (exXsdir.take 38) := by
  unfold CutAt
  decide +kernel

end xsdir

section mesh
open Meshtal
variable {K : Type} [Field K] [LinearOrder K] [IsStrictOrderedRing K] [FloorRing K]

private theorem rawOf_fun {flt : Str → Option K} {c : Option CType} {s : Sec} {m m' : RawMesh K} (h : RawOf flt c s m)
    (h' : RawOf flt c s m') : m = m' := by
  obtain ⟨a1, a2, a3, a4, a5, a6, a7, a8, a9, a10, a11, a12⟩ := h
  obtain ⟨b1, b2, b3, b4, b5, b6, b7, b8, b9, b10, b11, b12⟩ := h'
  cases m; cases m'
  simp only at *
  subst a1 a2 a3 a4 a5 a6 a7 a11 a12 b1 b2 b3 b4 b5 b6 b7 b11 b12
  rw [a8] at b8; rw [a9] at b9; rw [a10] at b10
  cases b8; cases b9; cases b10; rfl

private theorem meshOf_fun {flt : Str → Option K} {numeric : Str → Option (Option K)} {s : Sec} {m m' : Mesh K (Frame K)}
    (h : MeshOf flt numeric s m) (h' : MeshOf flt numeric s m') : m = m' := by
  have e := rawOf_fun h.1 h'.1
  have d := h.2.trans h'.2.symm
  cases m; cases m'
  simp only [Mesh.withData, Mesh.mk.injEq] at e d ⊢
  simp [e, d]

private theorem forall₂_fun {α β : Type} {R : α → β → Prop} (hR : ∀ a b b', R a b → R a b' → b = b') {l : List α} {x y : List β}
    (h : List.Forall₂ R l x) (h' : List.Forall₂ R l y) : x = y := by
  induction h generalizing y with
  | nil => cases h'; rfl
  | cons h _ ih =>
    cases h' with
    | cons g gs => rw [hR _ _ _ h g, ih gs]

private theorem forall₂_snoc {α β : Type} {R : α → β → Prop} {l : List α} {x : α} {r : List β} (h : List.Forall₂ R (l ++ [x]) r) :
    ∃ r' y, List.Forall₂ R l r' ∧ R x y ∧ r = r' ++ [y] := by
  induction l generalizing r with
  | nil =>
    cases h with
    | cons h hs => cases hs; exact ⟨[], _, .nil, h, rfl⟩
  | cons z l ih =>
    cases h with
    | cons h hs =>
      obtain ⟨r', y, h1, h2, rfl⟩ := ih hs
      exact ⟨_ :: r', y, .cons h h1, h2, rfl⟩

/-- C277 fails: a mesh tally file that was cut off behind a data line of its last mesh is read without an error; the rows behind are missing. -/
theorem C277_mesh_violated (flt : Str → Option K) (numeric : Str → Option (Option K)) (pre : List Str) (secs : List Sec) (s : Sec) (a b : List Str)
    (hb : s.body = a ++ b) (ha : ∃ l ∈ a, splitWs l ≠ []) (text text' : Str) (hf : FileOf flt pre (secs ++ [s]) text)
    (hd : ∀ t ∈ secs ++ [s], DataWF numeric t) (hk : ∀ t ∈ (secs ++ [s]).tail, t.kind ≠ .e6) (ht : keepLines text' ++ b = keepLines text) :
    ∃ ms m m', readMeshtallyText flt numeric none text = .ok (.all (ms ++ [m])) ∧ readMeshtallyText flt numeric none text' = .ok (.all (ms ++ [m'])) ∧
      MeshOf flt numeric s m ∧ MeshOf flt numeric { s with body := a } m' := by
  have hlines : keepLines text' = pre ++ (secs ++ [{ s with body := a }]).flatMap Sec.lines := by
    apply List.append_cancel_right (bs := b)
    rw [ht, hf.lines]
    simp [Sec.lines, hb]
  have hs := hf.secs s (by simp)
  have hd' := hd s (by simp)
  have hf' : FileOf flt pre (secs ++ [{ s with body := a }]) text' := by
    refine ⟨hlines, hf.pre, fun t ht => ?_⟩
    rcases List.mem_append.1 ht with h | h
    · exact hf.secs t (by simp [h])
    · rw [List.mem_singleton.1 h]
      obtain ⟨hw, hn⟩ := hs
      exact ⟨⟨hw.num1, hw.num2, hw.num3, hw.num4, hw.hdr, hw.tit1, hw.tit2, hw.tit3, hw.tit4, hw.tit5, fun l hl => hw.body l (by simp [hb, hl])⟩, hn⟩
  obtain ⟨ms1, h1, h2⟩ := C64_all_partial flt numeric pre _ (by simp) text hf hd hk
  obtain ⟨ms2, h3, h4⟩ := C64_all_partial flt numeric pre _ (by simp) text' hf' (by
    intro t ht
    rcases List.mem_append.1 ht with h | h
    · exact hd t (by simp [h])
    · rw [List.mem_singleton.1 h]
      exact ⟨fun _ => ha, fun l hl => hd'.2 l (by simp [hb, hl])⟩) (by
    intro t ht
    cases secs with
    | nil => simp at ht
    | cons u us =>
      simp only [List.cons_append, List.tail_cons, List.mem_append, List.mem_singleton] at ht
      rcases ht with h | rfl
      · exact hk t (by simp [h])
      · exact hk s (by simp))
  obtain ⟨ms, m, h5, h6, rfl⟩ := forall₂_snoc h2
  obtain ⟨ms', m', h7, h8, rfl⟩ := forall₂_snoc h4
  rw [forall₂_fun (R := MeshOf flt numeric) (fun _ _ _ => meshOf_fun) h7 h5] at h3
  exact ⟨ms, m, m', h1, h3, h6, h8⟩

example : DataWF (fun _ => some (some (1 : ℚ))) { exSec with body := exSec.body ++ exSec.body } ∧ ∃ l ∈ exSec.body, splitWs l ≠ [] := by
  refine ⟨⟨fun _ => ⟨p!" 1.000 1.000 1.000 1.0E-02 0.1\n", by simp [exSec], by decide +kernel⟩, ?_⟩,
    ⟨p!" 1.000 1.000 1.000 1.0E-02 0.1\n", by simp [exSec], by decide +kernel⟩⟩
  intro l hl
  simp only [exSec, List.mem_append, List.mem_singleton, or_self] at hl
  subst hl
  exact .inr ⟨by decide +kernel, by simp, by simp⟩

end mesh

section output
open McnpOutput
variable {F : Type} [LinearOrder F]

/-- C277 fails: an output of MCNP that was cut off before its first tally and its first print table is read without an error, as one without tallies. -/
theorem C277_output_violated (flt : Str → Option F) (minusOne : F) (enum : List Str → List Str) (he : enum [] = []) (path : Str) (a b : List Str)
    (o : Output F) (h : readOutputLines flt minusOne enum path (a ++ b) = .ok o) (hd : ∃ l ∈ a.take 100, p!"1mcnp" <+: l)
    (ht : ∀ l ∈ a, ¬ p!"1tally     " <+: l) (hp : ∀ l ∈ a, ¬ p!"print table" <:+: l) :
    ∃ o', readOutputLines flt minusOne enum path a = .ok o' ∧ o'.date = o.date ∧ o'.startTime = o.startTime ∧ o'.numTallies = 0 ∧ o'.tallyData = [] := by
  have hrun : readRunDate a = readRunDate (a ++ b) := by
    unfold readRunDate
    obtain ⟨x, hx⟩ : ∃ x, (if a.length > 101 then a.take 100 else a) = a.take 100 ++ x := by
      split
      · exact ⟨[], by simp⟩
      · exact ⟨a.drop 100, by simp⟩
    obtain ⟨y, hy⟩ : ∃ y, (if (a ++ b).length > 101 then (a ++ b).take 100 else a ++ b) = a.take 100 ++ y := by
      split
      · exact ⟨b.take (100 - a.length), by rw [List.take_append]⟩
      · exact ⟨a.drop 100 ++ b, by rw [← List.append_assoc, List.take_append_drop]⟩
    simp only [hx, hy]
    obtain ⟨l, hl, hp⟩ := hd
    generalize a.take 100 = q at hl
    obtain ⟨i, hi⟩ : ∃ i, findLine p!"1mcnp" q 5 = .ok i := by
      cases hfl : findLine p!"1mcnp" q 5 with
      | ok i => exact ⟨i, rfl⟩
      | error e => exact absurd (List.prefix_iff_eq_take.1 hp).symm (((C03_find_line_error _ _ _ _).1 hfl).2 l hl)
    have hq := (C03_find_line_ok _ _ _ _).1 hi
    have hlt : i < q.length := by
      obtain ⟨⟨m, hm, _⟩, _⟩ := hq
      exact (List.getElem?_eq_some_iff.1 hm).1
    have key : ∀ z, findLine p!"1mcnp" (q ++ z) 5 = .ok i := by
      intro z
      rw [C03_find_line_ok]
      refine ⟨?_, fun j hj hjj => hq.2 j hj ?_⟩
      · have := hq.1
        simp only [List.getElem?_append_left hlt] at this ⊢; exact this
      · simp only [List.getElem?_append_left (hj.trans hlt)] at hjj ⊢; exact hjj
    simp only [key, ex_ok_bind, at', List.getElem?_append_left hlt]
  have htab : getTableDict a = [] := by
    have : ∀ (n : Nat) (d : Dict Str Nat), (∀ l ∈ a, ¬ p!"print table" <:+: l) → (a.zipIdx n).foldl (fun (d : Dict Str Nat) e =>
        if hasSub p!"print table" e.1 then
          let key := (splitOn ' ' e.1).getLastD []
          if key = p!"160" ∨ key = p!"161" ∨ key.length > 3 then d else d.set key e.2
        else d) d = d := by
      clear * -
      induction a with
      | nil => intro _ _ _; rfl
      | cons l a ih =>
        intro n d h
        rw [List.zipIdx_cons, List.foldl_cons, if_neg (by rw [hasSub_iff]; exact h l (by simp))]
        exact ih _ _ (fun l hl => h l (by simp [hl]))
    exact this 0 [] hp
  have htal : getTallyNums a = .ok [] := by
    have : a.filter (fun l => l.take 11 = p!"1tally     ") = [] := by
      rw [List.filter_eq_nil_iff]
      intro l hl h
      refine ht l hl ?_
      rw [← of_decide_eq_true h]
      exact List.take_prefix _ _
    unfold getTallyNums
    rw [this]
    rfl
  unfold readOutputLines at h ⊢
  simp only [ex_bind_ok] at h
  obtain ⟨dt, h1, t60, _, t101, _, tls, _, ts, _, h2⟩ := h
  rw [hrun, h1, htab, htal]
  cases h2
  simp only [ex_ok_bind, readTableIf, Dict.get, he]
  exact ⟨_, rfl, rfl, rfl, rfl, rfl⟩

private def short : List Str := [p!"1mcnp x 01/01/20 10:00:00",
  p!"1tally        4        nps =        1000", p!"           tally type 4", p!"           particle(s): neutrons", p!"           volumes ",
  p!"     cell:    1   2", p!"   3 4", p!" ", p!" cell  1 ", p!"   10 1", p!" cell  2 ", p!"    20 2", p!" ", p!"1tally fluctuation charts"]

example : (readOutputLines pyNat 0 id p!"out" short).map (fun o => o.tallyData.length) = .ok 1 ∧
    (readOutputLines pyNat 0 id p!"out" (short.take 1)).map (fun o => o.tallyData.length) = .ok 0 := by decide +kernel

end output
end Props
