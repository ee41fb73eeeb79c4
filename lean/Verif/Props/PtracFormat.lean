/- Properties C230-C234 of mcnp_ptrac_reader.py: the variables of a ptrac file, by the identifiers in its header. -/
import Verif.Props.Readers
import Verif.Spec.Ptrac
import Verif.Proofs.NatStr

set_option linter.unusedSectionVars false

namespace Props
open Py NeutUtilities Ptrac
variable {F : Type}

/-- The tracks of a file: for each history a line with its number, the type of the first event and up to `extra` more entries, and the lines of
    its events. -/
inductive PtracTracks (flt : Str → Option F) (multi : Bool) (extra : Nat) (second : List Nat) : List (Spec.Ptrac.Hist F) → List Str → Prop
  | nil : PtracTracks flt multi extra second [] []
  | cons {h hs l n t more els ls} : Spec.IsWords l (n :: t :: more) → more.length = extra → pyInt n = some h.nps → flt t = some h.first →
      Spec.Ptrac.Events flt multi second h.events els → PtracTracks flt multi extra second hs ls →
      PtracTracks flt multi extra second (h :: hs) (l :: (els ++ ls))

/-- What the reader makes of an event. -/
private def readAs (multi : Bool) (k : Spec.Ptrac.Kind) (r : Spec.Ptrac.Rec F) : Event F :=
  { x := r.x, y := r.y, z := r.z, type := r.next, u := r.u, v := r.v, w := r.w, wgt := r.weight, energy := r.energy, time := r.time
    cell := match k with
      | .src => r.a
      | _ => if multi then r.b else r.a
    par := if multi then r.particle else match k with
      | .src => r.cell
      | _ => r.b }

private theorem layout_readAs (multi : Bool) (k : Spec.Ptrac.Kind) (r : Spec.Ptrac.Rec F) :
    Layout (readAs multi k r) ((Spec.Ptrac.ids1 multi k ++ Spec.Ptrac.ids2).map r.var) := by
  cases multi <;> cases k
  · exact .n15 (readAs false .src r) r.node r.material r.collisions
  · exact .n16 (readAs false .bnk r) r.node r.cell r.material r.collisions
  · exact .n16 (readAs false .sur r) r.node r.cell r.material r.collisions
  · exact .n16 (readAs false .col r) r.node r.cell r.material r.collisions
  · exact .n16 (readAs false .ter r) r.node r.cell r.material r.collisions
  · exact .n16 (readAs true .src r) r.node r.cell r.material r.collisions
  · exact .n17 (readAs true .bnk r) r.node r.a r.cell r.material r.collisions
  · exact .n17 (readAs true .sur r) r.node r.a r.cell r.material r.collisions
  · exact .n17 (readAs true .col r) r.node r.a r.cell r.material r.collisions
  · exact .n17 (readAs true .ter r) r.node r.a r.cell r.material r.collisions

private theorem mapM_shows {flt : Str → Option F} {r : Spec.Ptrac.Rec F} {ids : List Nat} {ws : List Str}
    (h : List.Forall₂ (fun i w => flt w = some (r.var i)) ids ws) : ws.mapM flt = some (ids.map r.var) := by
  induction h with
  | nil => rfl
  | cons h _ ih => rw [List.mapM_cons, h, ih]; rfl

private theorem events_read {flt : Str → Option F} {multi : Bool} {es : List (Spec.Ptrac.Kind × Spec.Ptrac.Rec F)} {ls : List Str}
    (h : Spec.Ptrac.Events flt multi Spec.Ptrac.ids2 es ls) : EventLines flt (es.map (fun e => readAs multi e.1 e.2)) ls := by
  induction h with
  | nil => exact .nil
  | @cons k r es l1 l2 ls h1 h2 _ ih =>
    obtain ⟨w1, a1, b1⟩ := h1
    obtain ⟨w2, a2, b2⟩ := h2
    refine .cons a1 a2 (by rw [← b2.length_eq]; rfl) ?_ (layout_readAs multi k r) ih
    rw [List.mapM_append, mapM_shows b1, mapM_shows b2, List.map_append]
    rfl

private theorem tracks_read {flt : Str → Option F} {multi : Bool} {extra : Nat} (hx : extra ≤ 1) {hs : List (Spec.Ptrac.Hist F)} {ls : List Str}
    (h : PtracTracks flt multi extra Spec.Ptrac.ids2 hs ls) :
    TrackLines flt (hs.map (fun h => ⟨h.nps, h.events.map (fun e => readAs multi e.1 e.2)⟩)) ls := by
  induction h with
  | nil => exact .nil
  | cons h1 h2 h3 _ h5 _ ih => exact .cons h1 (by simp only [List.length_cons]; omega) h3 (events_read h5) ih

/-- The events read for the histories of a file. -/
private theorem read_hists {flt : Str → Option F} {multi : Bool} {extra : Nat} (hx : extra ≤ 1) {hs : List (Spec.Ptrac.Hist F)} {ls : List Str}
    (h : PtracTracks flt multi extra Spec.Ptrac.ids2 hs ls) (hne : hs ≠ []) :
    processTracks flt ls = .ok (hs.map (fun h => some ⟨h.nps, h.events.map (fun e => readAs multi e.1 e.2)⟩)) := by
  rw [C27_decode_partial flt _ ls (tracks_read hx h) (by simpa using hne), List.map_map]
  rfl

/-! ### C230 -/

/-- The history read agrees with the history of the file in number and in a relation between the events. -/
def HistAgrees (rel : Spec.Ptrac.Kind × Spec.Ptrac.Rec F → Event F → Prop) (h : Spec.Ptrac.Hist F) (o : Option (History F)) : Prop :=
  ∃ g, o = some g ∧ g.nps = h.nps ∧ List.Forall₂ rel h.events g.events

/-- C230: whatever the kinds of the events and the particles of the file, every history and every event is there, with its position, direction,
    energy, weight and time. -/
theorem C230_coordinates (flt : Str → Option F) (multi : Bool) (extra : Nat) (hx : extra ≤ 1) (hs : List (Spec.Ptrac.Hist F)) (ls : List Str)
    (h : PtracTracks flt multi extra Spec.Ptrac.ids2 hs ls) (hne : hs ≠ []) :
    ∃ gs, processTracks flt ls = .ok gs ∧ List.Forall₂ (HistAgrees (fun e ev => ev.x = e.2.x ∧ ev.y = e.2.y ∧ ev.z = e.2.z ∧ ev.u = e.2.u ∧
      ev.v = e.2.v ∧ ev.w = e.2.w ∧ ev.energy = e.2.energy ∧ ev.wgt = e.2.weight ∧ ev.time = e.2.time)) hs gs := by
  refine ⟨_, read_hists hx h hne, ?_⟩
  rw [List.forall₂_map_right_iff, List.forall₂_same]
  intro g _
  refine ⟨_, rfl, rfl, ?_⟩
  rw [List.forall₂_map_right_iff, List.forall₂_same]
  intro e _
  exact ⟨rfl, rfl, rfl, rfl, rfl, rfl, rfl, rfl, rfl⟩

/-- A source event as in the test file: source type 40, in cell 1, the next event at a surface. -/
private def exRec : Spec.Ptrac.Rec Nat :=
  { next := 3000, node := 1, a := 40, b := 0, particle := 0, cell := 1, material := 0, collisions := 0, x := 0, y := 0, z := 0, u := 5, v := 4,
    w := 7, energy := 13, weight := 1, time := 2 }

private theorem exTracks : PtracTracks pyNat false 0 Spec.Ptrac.ids2 [⟨1, 1000, [(.src, exRec)]⟩]
    [p!"     1    1000", p!"  3000   1   40   1   0   0", p!" 0 0 0 5 4 7 13 1 2"] := by
  refine .cons (n := p!"1") (t := p!"1000") (more := []) (els := [_, _]) (ls := []) ?_ rfl (by decide) (by decide) ?_ .nil
  · rw [isWords_iff]; decide
  · refine .cons ⟨[p!"3000", p!"1", p!"40", p!"1", p!"0", p!"0"], ?_, ?_⟩ ⟨[p!"0", p!"0", p!"0", p!"5", p!"4", p!"7", p!"13", p!"1", p!"2"], ?_, ?_⟩ .nil
    · rw [isWords_iff]; decide
    · exact .cons rfl (.cons rfl (.cons rfl (.cons rfl (.cons rfl (.cons rfl .nil)))))
    · rw [isWords_iff]; decide
    · exact .cons rfl (.cons rfl (.cons rfl (.cons rfl (.cons rfl (.cons rfl (.cons rfl (.cons rfl (.cons rfl .nil))))))))

example : (processTracks pyNat [p!"     1    1000", p!"  3000   1   40   1   0   0", p!" 0 0 0 5 4 7 13 1 2"]).map
    (·.map (·.map (fun h => h.events.map (fun e => (e.type, e.cell, e.par))))) = .ok [some [(3000, 40, 1)]] := by decide +kernel
example : ([⟨1, 1000, [(.src, exRec)]⟩] : List (Spec.Ptrac.Hist Nat)).map (·.types) = [[1000]] := by decide

/-! ### C231 -/

/-- C231 (part that holds): in a file with several kinds of particles the particle of every event is right. Missing: the cell, and files with one
    kind of particle (`C231_cell_violated`, `C231_single_violated`). -/
theorem C231_particle_partial (flt : Str → Option F) (extra : Nat) (hx : extra ≤ 1) (hs : List (Spec.Ptrac.Hist F)) (ls : List Str)
    (h : PtracTracks flt true extra Spec.Ptrac.ids2 hs ls) (hne : hs ≠ []) :
    ∃ gs, processTracks flt ls = .ok gs ∧ List.Forall₂ (HistAgrees (fun e ev => ev.par = e.2.particle)) hs gs := by
  refine ⟨_, read_hists hx h hne, ?_⟩
  rw [List.forall₂_map_right_iff, List.forall₂_same]
  intro g _
  refine ⟨_, rfl, rfl, ?_⟩
  rw [List.forall₂_map_right_iff, List.forall₂_same]
  intro e _
  rfl

/-- C231 is violated: the cell of no kind of event is read. What is stored is the type of the source, or, for the other kinds, one of the two
    variables particular to the kind: nucleus, surface or termination type in a file with one kind of particle, reaction, angle or branch in a file
    with several. -/
theorem C231_cell_violated (flt : Str → Option F) (multi : Bool) (extra : Nat) (hx : extra ≤ 1) (hs : List (Spec.Ptrac.Hist F)) (ls : List Str)
    (h : PtracTracks flt multi extra Spec.Ptrac.ids2 hs ls) (hne : hs ≠ []) :
    ∃ gs, processTracks flt ls = .ok gs ∧ List.Forall₂ (HistAgrees (fun e ev => (e.1 = .src → ev.cell = e.2.a) ∧
      (e.1 ≠ .src → multi = false → ev.cell = e.2.a) ∧ (e.1 ≠ .src → multi = true → ev.cell = e.2.b))) hs gs := by
  refine ⟨_, read_hists hx h hne, ?_⟩
  rw [List.forall₂_map_right_iff, List.forall₂_same]
  intro g _
  refine ⟨_, rfl, rfl, ?_⟩
  rw [List.forall₂_map_right_iff, List.forall₂_same]
  rintro ⟨k, r⟩ _
  cases multi <;> cases k <;> simp [readAs]

/-- C231 is violated in files with one kind of particle: the particle of a source event is its cell, that of the other events a reaction, angle or
    branch. -/
theorem C231_single_violated (flt : Str → Option F) (extra : Nat) (hx : extra ≤ 1) (hs : List (Spec.Ptrac.Hist F)) (ls : List Str)
    (h : PtracTracks flt false extra Spec.Ptrac.ids2 hs ls) (hne : hs ≠ []) :
    ∃ gs, processTracks flt ls = .ok gs ∧ List.Forall₂ (HistAgrees (fun e ev => (e.1 = .src → ev.par = e.2.cell) ∧
      (e.1 ≠ .src → ev.par = e.2.b))) hs gs := by
  refine ⟨_, read_hists hx h hne, ?_⟩
  rw [List.forall₂_map_right_iff, List.forall₂_same]
  intro g _
  refine ⟨_, rfl, rfl, ?_⟩
  rw [List.forall₂_map_right_iff, List.forall₂_same]
  rintro ⟨k, r⟩ _
  cases k <;> simp [readAs]

/-! ### C232 -/

/-- C232 (part that holds): the types read are those of the file without the first, with the mark of the end behind the last. Missing: the type belongs
    to the event before (`C232_violated`). -/
theorem C232_shifted_partial (flt : Str → Option F) (multi : Bool) (extra : Nat) (hx : extra ≤ 1) (hs : List (Spec.Ptrac.Hist F)) (ls : List Str)
    (h : PtracTracks flt multi extra Spec.Ptrac.ids2 hs ls) (hne : hs ≠ []) :
    ∃ gs, processTracks flt ls = .ok gs ∧ List.Forall₂ (fun h o => ∃ g : History F, o = some g ∧
      ∀ mark, (h.events.map (fun e => e.2.next)).getLast? = some mark → g.events.map (·.type) = h.types.tail ++ [mark]) hs gs := by
  refine ⟨_, read_hists hx h hne, ?_⟩
  rw [List.forall₂_map_right_iff, List.forall₂_same]
  intro g _
  refine ⟨_, rfl, ?_⟩
  intro mark hm
  rw [List.map_map]
  have : ((fun e : Event F => e.type) ∘ fun e : Spec.Ptrac.Kind × Spec.Ptrac.Rec F => readAs multi e.1 e.2) = fun e => e.2.next := rfl
  simp only [this, Spec.Ptrac.Hist.types]
  generalize g.events.map (fun e => e.2.next) = l at hm
  cases l with
  | nil => cases hm
  | cons a l =>
    rw [List.dropLast_cons_cons, List.tail_cons, List.dropLast_append_getLast?]
    exact hm

/-- C232 is violated: in no history with events do the events have their types. -/
theorem C232_violated (flt : Str → Option F) (multi : Bool) (extra : Nat) (hx : extra ≤ 1) (hs : List (Spec.Ptrac.Hist F)) (ls : List Str)
    (h : PtracTracks flt multi extra Spec.Ptrac.ids2 hs ls) (hne : hs ≠ []) :
    ∃ gs, processTracks flt ls = .ok gs ∧ List.Forall₂ (fun h o => ∃ g : History F, o = some g ∧
      ∀ mark, (h.events.map (fun e => e.2.next)).getLast? = some mark → mark ∉ h.types → g.events.map (·.type) ≠ h.types) hs gs := by
  obtain ⟨gs, h1, h2⟩ := C232_shifted_partial flt multi extra hx hs ls h hne
  refine ⟨gs, h1, h2.imp ?_⟩
  rintro g o ⟨g', ho, hg⟩
  refine ⟨g', ho, ?_⟩
  intro mark hm hnot he
  rw [hg mark hm] at he
  exact hnot (by rw [← he]; simp)

/-! ### C233 -/

/-- C233 (part that holds): histories whose line has one more entry, the cell, the surface or the tally, are read like those with two. Missing:
    `C233_positions_violated` and `C233_entries_violated`. -/
theorem C233_all_partial (flt : Str → Option F) (multi : Bool) (extra : Nat) (hx : extra ≤ 1) (hs : List (Spec.Ptrac.Hist F)) (ls : List Str)
    (h : PtracTracks flt multi extra Spec.Ptrac.ids2 hs ls) (hne : hs ≠ []) :
    ∃ gs, processTracks flt ls = .ok gs ∧ gs.length = hs.length ∧
      List.Forall₂ (fun h o => ∃ g : History F, o = some g ∧ g.nps = h.nps ∧ g.events.length = h.events.length) hs gs := by
  refine ⟨_, read_hists hx h hne, by simp, ?_⟩
  rw [List.forall₂_map_right_iff, List.forall₂_same]
  intro g _
  exact ⟨_, rfl, rfl, by simp⟩

private theorem split_isWords {l : Str} {ws : List Str} (h : Spec.IsWords l ws) (hne : ws ≠ []) : stringCleanAndSplit l = ws := by
  obtain ⟨ws', h1, h2, h3⟩ := C04_clean_and_split l
  rw [h3, ← h2 ws h, if_neg hne]

private theorem ids1_length (multi : Bool) (k : Spec.Ptrac.Kind) :
    (Spec.Ptrac.ids1 multi k).length ≠ 2 ∧ (Spec.Ptrac.ids1 multi k).length ≠ 3 ∧ (Spec.Ptrac.ids1 multi k).length ≠ 9 ∧
      (Spec.Ptrac.ids1 multi k).length ≠ 0 := by
  cases multi <;> cases k <;> decide

private theorem words_nonspace {l : Str} {ws : List Str} (h : Spec.IsWords l ws) : ∀ w ∈ ws, ∀ c ∈ w, isSpace c = false := by
  induction h with
  | blank _ => simp
  | word _ hw _ _ ih =>
    intro w hm
    rcases List.mem_cons.1 hm with rfl | hm
    · exact hw.2
    · exact ih w hm

private theorem pyInt_point {s : Str} (hs : ∀ c ∈ s, isSpace c = false) (ha : '.' ∈ s) : pyInt s = none := by
  unfold pyInt
  rw [strip_word hs]
  have key : ∀ cs : Str, '.' ∈ cs → pyNat cs = none := by
    intro cs hc
    cases h : pyNat cs with
    | none => rfl
    | some n =>
      rcases pyNat_some h '.' hc with h | h
      · exact absurd h (by decide)
      · exact absurd h (by decide)
  split
  · rw [key _ (by simpa using ha)]; rfl
  · rw [key _ (by simpa using ha)]; rfl
  · rw [key _ ha]; rfl

/-- C233 is violated by files with the positions only (`write=pos`): the line of the three coordinates of the first event, written with points, is
    taken for the line of a new history, and as its first entry is no integer ValueError is raised. -/
theorem C233_positions_violated (flt : Str → Option F) (multi : Bool) (k : Spec.Ptrac.Kind) (r : Spec.Ptrac.Rec F) (l l1 l2 n t w : Str)
    (more ws rest : List Str) (nps : Int) (h1 : Spec.IsWords l (n :: t :: more)) (hm : more.length ≤ 1) (hn : pyInt n = some nps)
    (h2 : Spec.Ptrac.Shows flt r (Spec.Ptrac.ids1 multi k) l1) (h3 : Spec.IsWords l2 (w :: ws))
    (h4 : List.Forall₂ (fun i w => flt w = some (r.var i)) Spec.Ptrac.ids2Pos (w :: ws)) (hdot : '.' ∈ w) :
    processTracks flt (l :: l1 :: l2 :: rest) = .error .ValueError := by
  obtain ⟨w1, a1, b1⟩ := h2
  have hlen1 := b1.length_eq
  obtain ⟨i2, i3, i9, i0⟩ := ids1_length multi k
  have s0 := split_isWords h1 (by simp)
  have s1 := split_isWords a1 (by rintro rfl; simp at hlen1; exact i0 (by simpa using hlen1))
  have s2 := split_isWords h3 (by simp)
  have hlen2 : (w :: ws).length = 3 := by rw [← h4.length_eq]; rfl
  unfold processTracks
  rw [tracksLoop_header (n := nps) (by rw [s0]; simp only [List.length_cons]; omega) (by rw [s0]; exact hn),
    tracksLoop_other (by rw [s1]; omega) (by rw [s1]; omega), tracksLoop.eq_def]
  simp only [s2, hlen2, or_true, if_true, List.headD_cons, pyInt_point (words_nonspace h3 w (by simp)) hdot]

/-- C233 is violated by files in which the line of a history has four to eight entries, as with a tally or with both cells and surfaces: it is taken for
    the line of an event, and the first event raises AttributeError. -/
theorem C233_entries_violated (flt : Str → Option F) (multi : Bool) (extra : Nat) (hx : 2 ≤ extra ∧ extra ≤ 6) (h : Spec.Ptrac.Hist F)
    (hs : List (Spec.Ptrac.Hist F)) (ls : List Str) (hl : PtracTracks flt multi extra Spec.Ptrac.ids2 (h :: hs) ls) (hev : h.events ≠ []) :
    processTracks flt ls = .error .AttributeError := by
  cases hl with
  | @cons _ _ l n t more els ls h1 h2 h3 _ h5 _ =>
    generalize he : h.events = es at h5 hev
    cases h5 with
    | nil => exact absurd rfl hev
    | @cons k r es l1 l2 els h6 h7 _ =>
      obtain ⟨w1, a1, b1⟩ := h6
      obtain ⟨w2, a2, b2⟩ := h7
      have hlen1 := b1.length_eq
      have hlen2 : w2.length = 9 := by rw [← b2.length_eq]; rfl
      obtain ⟨i2, i3, i9, i0⟩ := ids1_length multi k
      have s0 := split_isWords h1 (by simp)
      have s1 := split_isWords a1 (by rintro rfl; exact i0 (by simpa using hlen1))
      have s2 := split_isWords a2 (by rintro rfl; simp at hlen2)
      unfold processTracks
      rw [tracksLoop_other (by rw [s0]; simp only [List.length_cons]; omega) (by rw [s0]; simp only [List.length_cons]; omega), List.cons_append,
        List.cons_append, tracksLoop_other (by rw [s1]; omega) (by rw [s1]; omega), tracksLoop.eq_def]
      have hev : processEvent flt (w1 ++ w2) = .ok (readAs multi k r) := by
        have hm : (w1 ++ w2).mapM flt = some ((Spec.Ptrac.ids1 multi k ++ Spec.Ptrac.ids2).map r.var) := by
          rw [List.mapM_append, mapM_shows b1, mapM_shows b2, List.map_append]
          rfl
        unfold processEvent
        rw [hm]
        cases multi <;> cases k <;> rfl
      simp only [s1, s2, hlen2, hev]
      simp

/-- The first event of a file with positions only. -/
example : Spec.IsWords p!"   0.00000E+00  0.00000E+00  0.00000E+00" [p!"0.00000E+00", p!"0.00000E+00", p!"0.00000E+00"] ∧ '.' ∈ p!"0.00000E+00" := by
  refine ⟨?_, by decide⟩
  rw [isWords_iff]
  decide
example : processTracks (fun _ => some (0 : ℚ)) [p!" 1 1000", p!" 3000 1 40 1 0 0", p!"   0.00000E+00  0.00000E+00  0.00000E+00"] = .error .ValueError := by
  rfl
example : (processTracks pyNat [p!" 1 1000 5 6", p!"  3000   1   40   1   0   0", p!" 0 0 0 5 4 7 13 1 2"]).map (fun _ => ()) = .error .AttributeError := by
  decide +kernel

/-! ### C234 -/

/-- The header: three lines (mark, program, title), at least two lines of ten numbers for the keywords, the line of twenty numbers of variables, and the
    identifiers, thirty on a line. -/
structure PtracHeader where
  start : List Str
  keywords : List Str
  counts : Str
  ids : List Str

def PtracHeader.WF (p : PtracHeader) (multi : Bool) : Prop :=
  p.start.length = 3 ∧ 2 ≤ p.keywords.length ∧ (∀ l ∈ p.keywords, ∃ ws, Spec.IsWords l ws ∧ ws.length = 10) ∧
    (∃ ws, Spec.IsWords p.counts ws ∧ ws.length = 20) ∧
    List.Forall₂ (fun n l => ∃ ws, Spec.IsWords l ws ∧ ws.length = n) (Spec.Ptrac.lineLengths 30 (Spec.Ptrac.allIds multi Spec.Ptrac.ids2).length) p.ids

def PtracHeader.lines (p : PtracHeader) : List Str := p.start ++ p.keywords ++ [p.counts] ++ p.ids

private theorem skip_lines (flt : Str → Option F) (ls : List Str) (rest : List Str)
    (h : ∀ l ∈ ls, ∃ ws, Spec.IsWords l ws ∧ ws.length ≠ 0 ∧ ws.length ≠ 2 ∧ ws.length ≠ 3 ∧ ws.length ≠ 9) (temp : Option (List Str)) :
    ∃ temp', tracksLoop flt [] none temp (ls ++ rest) = tracksLoop flt [] none temp' rest := by
  induction ls generalizing temp with
  | nil => exact ⟨temp, rfl⟩
  | cons l ls ih =>
    obtain ⟨ws, hw, h0, h2, h3, h9⟩ := h l (by simp)
    have hs := split_isWords hw (by rintro rfl; simp at h0)
    obtain ⟨temp', ht⟩ := ih (fun l hl => h l (by simp [hl])) (some (stringCleanAndSplit l))
    exact ⟨temp', by rw [List.cons_append, tracksLoop_other (by rw [hs]; omega) (by rw [hs]; omega), ht]⟩

/-- C234: whatever the number of lines the keywords take in the header, all histories are read. -/
theorem C234_header (flt : Str → Option F) (multi : Bool) (extra : Nat) (hx : extra ≤ 1) (p : PtracHeader) (hp : p.WF multi)
    (hs : List (Spec.Ptrac.Hist F)) (tracks : List Str) (h : PtracTracks flt multi extra Spec.Ptrac.ids2 hs tracks) (hne : hs ≠ []) (path : Str)
    (fs : FS) (hl : (getLines path fs).1 = .ok (p.lines ++ tracks)) :
    ∃ gs, readPtrac flt path fs = (.ok gs, fs) ∧ processTracks flt tracks = .ok gs := by
  obtain ⟨h1, h2, h3, ⟨wc, h4, h4'⟩, h5⟩ := hp
  have hidl : p.ids.length = 3 := by
    rw [← h5.length_eq]
    cases multi <;> decide
  have hidw : ∀ l ∈ p.ids, ∃ ws, Spec.IsWords l ws ∧ ws.length ≠ 0 ∧ ws.length ≠ 2 ∧ ws.length ≠ 3 ∧ ws.length ≠ 9 := by
    have hn : ∀ n ∈ Spec.Ptrac.lineLengths 30 (Spec.Ptrac.allIds multi Spec.Ptrac.ids2).length, n ≠ 0 ∧ n ≠ 2 ∧ n ≠ 3 ∧ n ≠ 9 := by
      cases multi <;> decide
    intro l hl
    obtain ⟨i, hi, rfl⟩ := List.mem_iff_getElem.1 hl
    have hlen := h5.length_eq
    obtain ⟨ws, hw, he⟩ := (List.forall₂_iff_get.1 h5).2 i (by omega) hi
    refine ⟨ws, hw, ?_⟩
    rw [he]
    exact hn _ (List.getElem_mem _)
  have hsplit : p.lines = p.lines.take 9 ++ p.lines.drop 9 := (List.take_append_drop 9 p.lines).symm
  have h9 : (p.lines.take 9).length = 9 := by
    rw [List.length_take]
    simp only [PtracHeader.lines, List.length_append, List.length_singleton, h1, hidl]
    omega
  have hsub : ∀ l ∈ p.lines.drop 9, ∃ ws, Spec.IsWords l ws ∧ ws.length ≠ 0 ∧ ws.length ≠ 2 ∧ ws.length ≠ 3 ∧ ws.length ≠ 9 := by
    intro l hl
    have hl' : l ∈ p.keywords ++ [p.counts] ++ p.ids := by
      have : p.lines.drop 9 = (p.keywords ++ [p.counts] ++ p.ids).drop 6 := by
        have : p.lines = p.start ++ (p.keywords ++ [p.counts] ++ p.ids) := by simp [PtracHeader.lines]
        rw [this, show (9 : Nat) = 3 + 6 from rfl, ← List.drop_drop, List.drop_left' h1]
      rw [this] at hl
      exact List.mem_of_mem_drop hl
    simp only [List.mem_append, List.mem_singleton] at hl'
    rcases hl' with (hl' | rfl) | hl'
    · obtain ⟨ws, hw, he⟩ := h3 l hl'
      exact ⟨ws, hw, by omega, by omega, by omega, by omega⟩
    · exact ⟨wc, h4, by omega, by omega, by omega, by omega⟩
    · exact hidw l hl'
  have hread := read_hists hx h hne
  refine ⟨_, ?_, hread⟩
  have hall := (C30_header (p.lines ++ tracks) flt fs path hl).2.2 (p.lines.take 9) (p.lines.drop 9 ++ tracks) (by
    rw [← List.append_assoc, List.take_append_drop]) h9
  rw [hall]
  congr 1
  unfold processTracks
  obtain ⟨temp', ht⟩ := skip_lines flt (p.lines.drop 9) tracks hsub none
  rw [ht, tracks_loop (tracks_read hx h) [] none temp' (by simpa using hne), List.map_map]
  rfl

private def words (n : Nat) : Str := (List.replicate n p!" 1").flatten

private theorem words_ok (n : Nat) : Spec.IsWords (words n) (List.replicate n p!"1") := by
  unfold words
  induction n with
  | zero => exact .blank (by intro c hc; simp at hc)
  | succ n ih =>
    rw [List.replicate_succ, List.replicate_succ, List.flatten_cons]
    refine .word (pre := p!" ") (w := p!"1") (by intro c hc; simp at hc; subst hc; rfl) ⟨by decide, by decide⟩ ?_ ih
    cases n with
    | zero => simp
    | succ n => simp [List.replicate_succ]; rfl

/-- A header with three lines of keywords, ten lines in all. -/
example : (PtracHeader.mk [p!"   -1", p!"mcnp", p!"title"] [words 10, words 10, words 10] (words 20) [words 30, words 30, words 21]).WF false := by
  refine ⟨rfl, by decide, ?_, ⟨_, words_ok 20, by simp⟩, ?_⟩
  · intro l hl
    simp only [List.mem_cons, List.not_mem_nil, or_false, or_self] at hl
    subst hl
    exact ⟨_, words_ok 10, by simp⟩
  · exact .cons ⟨_, words_ok 30, by simp⟩ (.cons ⟨_, words_ok 30, by simp⟩ (.cons ⟨_, words_ok 21, by rw [List.length_replicate]; decide⟩ .nil))

end Props
