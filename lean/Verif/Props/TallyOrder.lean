/-
C263: the order of the tallies in an MCNP output file.
-/
import Verif.Props.McnpOutput7
import Verif.Props.McnpOutput
import Verif.Props.CardOrder

namespace Props
open Py NeutUtilities McnpOutput
variable {F : Type}

/-- The printed results of a tally: its number, its header and the lines that follow. -/
structure Printed where
  tnum : Str
  hd : Str
  body : List Str

/-- A section that begins with the header of its tally and has at least three further lines, none of them beginning with "1tally". -/
structure PrintedOk (s : Printed) : Prop where
  short : s.tnum.length ≤ 9
  head : TallyHead s.tnum s.hd
  body : ∀ l ∈ s.body, ¬ p!"1tally" <+: l
  long : 3 ≤ s.body.length

/-- The lines of the sections. -/
def printedLines (ss : List Printed) : List Str := ss.flatMap (fun s => s.hd :: s.body)

/-- No section has the header of another one. -/
def OwnHeads (ss : List Printed) : Prop := ∀ s ∈ ss, ∀ t ∈ ss, TallyHead s.tnum t.hd → t = s

private theorem head_prefix {n l : Str} (h : TallyHead n l) : p!"1tally" <+: l := by
  obtain ⟨t, ht⟩ := h
  exact ⟨List.replicate (9 - n.length) ' ' ++ n ++ t, by rw [← ht]; simp⟩

private theorem section_of {ss : List Printed} (hok : ∀ s ∈ ss, PrintedOk s) (hown : OwnHeads ss) {s : Printed} (hs : s ∈ ss) {pre post : List Str}
    {last : Str} (hpre : ∀ l ∈ pre, ¬ TallyHead s.tnum l) (hlast : p!"1tally" <+: last) :
    TallySection s.tnum (pre ++ (printedLines ss ++ last :: post)) s.hd s.body := by
  obtain ⟨a, b, rfl, hna⟩ := List.eq_append_cons_of_mem hs
  have hA : ∀ l ∈ pre ++ printedLines a, ¬ TallyHead s.tnum l := by
    intro l hl
    rcases List.mem_append.1 hl with hl | hl
    · exact hpre l hl
    · obtain ⟨t, ht, hl⟩ := List.mem_flatMap.1 hl
      have htss : t ∈ a ++ s :: b := List.mem_append_left _ ht
      rcases List.mem_cons.1 hl with rfl | hl
      · intro h
        have := hown s hs t htss h
        exact hna (this ▸ ht)
      · intro h
        exact (hok t htss).body l hl (head_prefix h)
  have hok' := hok s hs
  cases b with
  | nil =>
    exact ⟨pre ++ printedLines a, last, post, by simp [printedLines], hA, hok'.head, hok'.body, hlast⟩
  | cons t b =>
    exact ⟨pre ++ printedLines a, t.hd, t.body ++ (printedLines b ++ last :: post), by simp [printedLines], hA, hok'.head, hok'.body,
      head_prefix (hok t (by simp)).head⟩

/-- C263: a tally is read the same from a file with the tallies in any other order; the final results follow the line that says why the run was
    terminated and end with another line that begins with "1tally", like the one of the fluctuation charts. -/
theorem C263_tally [LinearOrder F] (flt : Str → Option F) (minusOne : F) (enum : List Str → List Str) {ss ss' : List Printed}
    (hok : ∀ s ∈ ss, PrintedOk s) (hown : OwnHeads ss) (hp : ss.Perm ss') {top mid post : List Str} {term last : Str} (hterm : TermLine term)
    (htop : ∀ l ∈ top, ¬ TermLine l) (hmid : ∀ l ∈ term :: mid, ¬ p!"1tally" <+: l) (hlast : p!"1tally" <+: last) {s : Printed} (hs : s ∈ ss) :
    readTally flt minusOne enum (top ++ term :: (mid ++ (printedLines ss ++ last :: post))) s.tnum =
      readTally flt minusOne enum (top ++ term :: (mid ++ (printedLines ss' ++ last :: post))) s.tnum := by
  unfold readTally
  rw [finalLines_term hterm htop, finalLines_term hterm htop]
  have hpre : ∀ l ∈ term :: mid, ¬ TallyHead s.tnum l := fun l hl h => hmid l hl (head_prefix h)
  have h1 := section_of (post := post) hok hown hs hpre hlast
  have h2 := section_of (post := post) (fun t ht => hok t (hp.mem_iff.2 ht))
    (fun a ha b hb => hown a (hp.mem_iff.2 ha) b (hp.mem_iff.2 hb)) (hp.mem_iff.1 hs) hpre hlast
  have hk := hok s hs
  exact C195_section flt minusOne enum hk.short h1 h2 hk.long

/-- C263: the numbers of the tallies found in the file are the same. -/
theorem C263_numbers {ss ss' : List Printed} (hp : ss.Perm ss') (top bottom : List Str) {ns : List Str}
    (h : getTallyNums (top ++ (printedLines ss ++ bottom)) = .ok ns) :
    ∃ ns', getTallyNums (top ++ (printedLines ss' ++ bottom)) = .ok ns' ∧ ns.Perm ns' := by
  unfold getTallyNums at h ⊢
  obtain ⟨r, h1, h2⟩ := ex_bind_ok.1 h
  cases h2
  have hl : (top ++ (printedLines ss ++ bottom)).Perm (top ++ (printedLines ss' ++ bottom)) :=
    List.Perm.append_left _ (List.Perm.append_right _ (hp.flatMap_right _))
  obtain ⟨r', h3, h4⟩ := mapM_perm (hl.filter _) h1
  exact ⟨r'.dedup, by rw [h3]; rfl, h4.dedup⟩

example : OwnHeads [⟨p!"4", p!"1tally        4        nps =     1000", [p!"a", p!"b", p!"c"]⟩,
    ⟨p!"14", p!"1tally       14        nps =     1000", [p!"a", p!"b", p!"c"]⟩] := by
  intro s hs t ht h
  simp only [List.mem_cons, List.not_mem_nil, or_false] at hs ht
  unfold TallyHead at h
  rcases hs with rfl | rfl <;> rcases ht with rfl | rfl <;> first | rfl | (exfalso; revert h; decide)

example : PrintedOk ⟨p!"4", p!"1tally        4        nps =     1000", [p!"a", p!"b", p!"c"]⟩ :=
  ⟨by decide, by unfold TallyHead; decide, by decide, by decide⟩

end Props
