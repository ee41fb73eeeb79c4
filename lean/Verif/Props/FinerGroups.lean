/-
C318: groups of a finer group structure.
-/
import Verif.Props.FluxesWriter
import Mathlib.Order.Basic

namespace Props
open FluxesWriter Py Spec

section
variable {K : Type} [LinearOrder K]

/-- The range of group `i`: above `a`, up to `b`. -/
def GroupRange (gs : List K) (i : Nat) (a b : K) : Prop := gs[i]? = some b ∧ gs[i + 1]? = some a

private theorem no_bound_inside {gs : List K} (hd : gs.Pairwise (· > ·)) {i : Nat} {a b x : K} (hg : GroupRange gs i a b) (hx : x ∈ gs) :
    x ≤ a ∨ b ≤ x := by
  obtain ⟨hb, ha⟩ := hg
  obtain ⟨k, hk, rfl⟩ := List.mem_iff_getElem.1 hx
  obtain ⟨hi, rfl⟩ := List.getElem?_eq_some_iff.1 hb
  obtain ⟨hi', rfl⟩ := List.getElem?_eq_some_iff.1 ha
  rw [List.pairwise_iff_getElem] at hd
  rcases Nat.lt_trichotomy k i with h | rfl | h
  · exact .inr (hd k i hk hi h).le
  · exact .inr le_rfl
  · rcases Nat.eq_or_lt_of_le (show i + 1 ≤ k from h) with rfl | h
    · exact .inl le_rfl
    · exact .inl (hd (i + 1) k hi' hk h).le

/-- C318: an energy is looked up in two group structures, the boundaries of the first one being among those of the second. The group found in the
    second lies inside the group found in the first. -/
theorem C318_inside (gs fine : List K) (hd : gs.Pairwise (· > ·)) (hd' : fine.Pairwise (· > ·)) (hsub : ∀ g ∈ gs, g ∈ fine) (e top bottom : K)
    (ht : gs.head? = some top) (hb : gs.getLast? = some bottom) (h1 : e ≤ top) (h2 : bottom < e) :
    ∃ i j : Nat, ∃ a b c d, getGroupPos (some gs) (some e) = .ok (i : Int) ∧ getGroupPos (some fine) (some e) = .ok (j : Int) ∧
      GroupRange gs i a b ∧ GroupRange fine j c d ∧ a ≤ c ∧ c < e ∧ e ≤ d ∧ d ≤ b := by
  obtain ⟨i, hi, ⟨b, a, hb1, ha1, heb, hae⟩, -⟩ := C34_bin gs hd e top bottom ht hb h1 h2
  have htm : top ∈ fine := hsub _ (List.mem_of_mem_head? ht)
  have hbm : bottom ∈ fine := hsub _ (List.mem_of_mem_getLast? hb)
  have hne : fine ≠ [] := List.ne_nil_of_mem htm
  have htop : e ≤ fine.head hne := by
    refine h1.trans ?_
    cases fine with
    | nil => exact absurd rfl hne
    | cons x xs =>
      rcases List.mem_cons.1 htm with rfl | h
      · exact le_rfl
      · exact (List.rel_of_pairwise_cons hd' h).le
  have hbot : fine.getLast hne < e := by
    refine lt_of_le_of_lt ?_ h2
    obtain ⟨k, hk, rfl⟩ := List.mem_iff_getElem.1 hbm
    rw [List.getLast_eq_getElem]
    rw [List.pairwise_iff_getElem] at hd'
    rcases Nat.eq_or_lt_of_le (show k ≤ fine.length - 1 by omega) with h | h
    · exact le_of_eq (by simp [h])
    · exact (hd' k _ hk (by omega) h).le
  obtain ⟨j, hj, ⟨d, c, hd1, hc1, hed, hce⟩, -⟩ := C34_bin fine hd' e _ _ (List.head?_eq_some_head hne) (List.getLast?_eq_some_getLast hne) htop hbot
  have hr : GroupRange fine j c d := ⟨hd1, hc1⟩
  refine ⟨i, j, a, b, c, d, hi, hj, ⟨hb1, ha1⟩, hr, ?_, hce, hed, ?_⟩
  · rcases no_bound_inside hd' hr (hsub a (List.mem_of_getElem? ha1)) with h | h
    · exact h
    · exact absurd (hed.trans h) (not_le.2 hae)
  · rcases no_bound_inside hd' hr (hsub b (List.mem_of_getElem? hb1)) with h | h
    · exact absurd (lt_of_le_of_lt h hce) (not_lt.2 heb)
    · exact h

/-- C318: two energies that are in the same group of the finer structure are in the same group of the other one, too. -/
theorem C318_together (gs fine : List K) (hd : gs.Pairwise (· > ·)) (hd' : fine.Pairwise (· > ·)) (hsub : ∀ g ∈ gs, g ∈ fine) (e e' top bottom : K)
    (ht : gs.head? = some top) (hb : gs.getLast? = some bottom) (h1 : e ≤ top) (h2 : bottom < e) (h1' : e' ≤ top) (h2' : bottom < e')
    (h : getGroupPos (some fine) (some e) = getGroupPos (some fine) (some e')) :
    getGroupPos (some gs) (some e) = getGroupPos (some gs) (some e') := by
  obtain ⟨i, j, a, b, c, d, hi, hj, hg, hf, hac, hce, hed, hdb⟩ := C318_inside gs fine hd hd' hsub e top bottom ht hb h1 h2
  obtain ⟨i', j', a', b', c', d', hi', hj', hg', hf', hac', hce', hed', hdb'⟩ := C318_inside gs fine hd hd' hsub e' top bottom ht hb h1' h2'
  rw [hj, hj'] at h
  have hjj : j = j' := by simpa using h
  subst hjj
  have hd2 : d = d' := Option.some.inj (hf.1.symm.trans hf'.1)
  have hc2 : c = c' := Option.some.inj (hf.2.symm.trans hf'.2)
  subst hd2 hc2
  have k1 : InBin gs e' i := ⟨b, a, hg.1, hg.2, hed'.trans hdb, lt_of_le_of_lt hac hce'⟩
  obtain ⟨k, hk, -, hu⟩ := C34_bin gs hd e' top bottom ht hb h1' h2'
  rw [hi, hk, hu i k1]

end

example : getGroupPos (some [5, 3, 1]) (some 2) = .ok 1 ∧ getGroupPos (some [5, 4, 3, 2, 1]) (some 2) = .ok 3 ∧
    GroupRange [5, 3, 1] 1 1 3 ∧ GroupRange [5, 4, 3, 2, 1] 3 1 2 ∧ ¬ GroupRange [5, 4, 3, 2, 1] 3 1 3 := by
  refine ⟨by decide, by decide, ⟨rfl, rfl⟩, ⟨rfl, rfl⟩, ?_⟩
  rintro ⟨h, -⟩; simp at h

end Props
