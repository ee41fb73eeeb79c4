/-
C249: a material made from an inventory, read back by the reader of MCNP inputs.
-/
import Verif.Model.MatCard
import Verif.Props.McnpWrap
import Verif.Props.FispactAnalysis

namespace Props
open Py FispactAnalysis McnpInput Spec Spec.Mcnp
variable {K F : Type} [Field K] [LinearOrder K]

/-- The card with number `n` made of the lines of the output: its name in front of the lines. -/
def matCard (n : Nat) (out : List (MatRow K)) : List Str := (p!"m" ++ natStr n) :: out.map (·.output)

/-- A number as it can stand on a card: one word in lower case without '$' and '='. -/
def CardNumber (s : Str) : Prop := IsWord s ∧ ∀ c ∈ s, c.toLower = c ∧ c ≠ '$' ∧ c ≠ '='

/-- What is on the card: for each nuclide its text and the fraction of its atoms as it was printed. -/
def matEntries (suffix : Str) (fmtN : Option K → Str) (total : K) (zas : List Nat) (xs : List K) : List (Str × Str) :=
  List.zipWith (fun za x => (natStr za ++ suffix, fmtN (some (x / total)))) zas xs

private theorem cardNumber_zaid (za : Nat) : CardNumber (natStr za ++ p!".0") := by
  refine ⟨⟨by simp, fun c hc => ?_⟩, fun c hc => ?_⟩
  · rcases List.mem_append.1 hc with hc | hc
    · exact isDigit_not_space (natStr_isDigit hc)
    · exact (by decide : ∀ c ∈ p!".0", isSpace c = false) c hc
  · rcases List.mem_append.1 hc with hc | hc
    · have := natStr_isDigit hc
      exact ⟨digit_toLower_self this, by rintro rfl; exact absurd this (by decide), by rintro rfl; exact absurd this (by decide)⟩
    · exact (by decide : ∀ c ∈ p!".0", c.toLower = c ∧ c ≠ '$' ∧ c ≠ '=') c hc

/-- The lines of the output. -/
private theorem out_lines (fmtN : Option K → Str) (total : K) (htot : total ≠ 0) :
    ∀ (inv : List (Row K)) (zs as : List Nat) (xs : List K),
      inv.map (fun r => Constants.zDict.get r.element) = zs.map some → inv.map (·.a) = as.map .int → inv.map (·.atoms) = xs.map some →
      ∃ out, inv.mapM (fun r =>
        match r.a with
        | .str _ => Except.error Err.TypeError
        | .int a =>
          let z := (Constants.zDict.get r.element).map (fun z => z * 1000 + a)
          let n := if total = 0 then none else r.atoms.map (fun x => x / total)
          Except.ok (⟨z, n, p!"     " ++ zaidText z ++ p!"  " ++ fmtN n⟩ : MatRow K)) = .ok out ∧
        out.map (·.output) = (matEntries p!".0" fmtN total (List.zipWith (fun z a => 1000 * z + a) zs as) xs).map
          (fun e => p!"     " ++ e.1 ++ p!"  " ++ e.2) := by
  intro inv
  induction inv with
  | nil =>
    intro zs as xs h1 h2 h3
    have : zs = [] := by simpa using h1.symm
    subst this
    exact ⟨[], rfl, by simp [matEntries]⟩
  | cons r inv ih =>
    intro zs as xs h1 h2 h3
    match zs, as, xs, h1, h2, h3 with
    | z :: zs, a :: as, x :: xs, h1, h2, h3 =>
      simp only [List.map_cons, List.cons.injEq] at h1 h2 h3
      obtain ⟨out, ho, hl⟩ := ih zs as xs h1.2 h2.2 h3.2
      refine ⟨⟨some (z * 1000 + a), some (x / total), p!"     " ++ zaidText (some (z * 1000 + a)) ++ p!"  " ++ fmtN (some (x / total))⟩ :: out,
        ?_, ?_⟩
      · rw [List.mapM_cons, ho, h1.1, h2.1, h3.1]
        simp only [Option.map_some, if_neg htot]
        rfl
      · rw [List.map_cons, hl]
        simp only [matEntries, List.zipWith_cons_cons, List.map_cons, zaidText, Nat.mul_comm 1000 z]

omit [LinearOrder K] in
private theorem total_eq {inv : List (Row K)} {xs : List K} (hx : inv.map (·.atoms) = xs.map some) :
    (inv.filterMap (·.atoms)).sum = xs.sum := by
  have h1 : inv.filterMap (·.atoms) = (inv.map (·.atoms)).filterMap id := by
    rw [List.filterMap_map]; rfl
  rw [h1, hx, List.filterMap_map]
  congr 1
  simp

private theorem zipWith_left {α β γ : Type} (f : α → γ) : ∀ (a : List α) (b : List β), a.length = b.length →
    List.zipWith (fun x _ => f x) a b = a.map f
  | [], _, _ => rfl
  | _ :: _, [], h => by simp at h
  | x :: a, y :: b, h => by rw [List.zipWith_cons_cons, List.map_cons, zipWith_left f a b (by simpa using h)]

/-- Reading a card made of such lines. -/
private theorem read_lines (flt : Str → Option F) (n : Nat) (es : List (Str × Str × F))
    (h1 : ∀ e ∈ es, CardNumber e.1) (h2 : ∀ e ∈ es, CardNumber e.2.1) (hf : ∀ e ∈ es, flt e.2.1 = some e.2.2) :
    ∃ m, readMaterialLines flt n ((p!"m" ++ natStr n) :: es.map (fun e => p!"     " ++ e.1 ++ p!"  " ++ e.2.1)) = .ok m ∧
      m.number = n ∧ (∀ z x, m.composition.get z = some x ↔ LastWins (es.map (fun e => (e.1, e.2.2))) z x) ∧
      m.composition.keys.Nodup ∧ m.numNuclides = (es.map (·.1)).dedup.length := by
  have hcont : ∀ l ∈ es.map (fun e => p!"     " ++ e.1 ++ p!"  " ++ e.2.1), Cont l := by
    intro l hl
    obtain ⟨e, _, rfl⟩ := List.mem_map.1 hl
    exact ⟨e.1 ++ p!"  " ++ e.2.1, by simp⟩
  have hplain : ∀ e ∈ es, lower (code (p!"     " ++ e.1 ++ p!"  " ++ e.2.1)) = p!"     " ++ e.1 ++ p!"  " ++ e.2.1 := by
    intro e he
    have hall : ∀ c ∈ p!"     " ++ e.1 ++ p!"  " ++ e.2.1, c.toLower = c ∧ c ≠ '$' := by
      intro c hc
      simp only [List.mem_append] at hc
      rcases hc with ((hc | hc) | hc) | hc
      · exact (by decide : ∀ c ∈ p!"     ", c.toLower = c ∧ c ≠ '$') c hc
      · exact ⟨((h1 e he).2 c hc).1, ((h1 e he).2 c hc).2.1⟩
      · exact (by decide : ∀ c ∈ p!"  ", c.toLower = c ∧ c ≠ '$') c hc
      · exact ⟨((h2 e he).2 c hc).1, ((h2 e he).2 c hc).2.1⟩
    unfold code
    rw [List.takeWhile_eq_self_iff.2 (fun c hc => by simpa using (hall c hc).2)]
    unfold lower
    conv_rhs => rw [← List.map_id (p!"     " ++ e.1 ++ p!"  " ++ e.2.1)]
    exact List.map_congr_left (fun c hc => (hall c hc).1)
  have hcard : Card (MatHead n) ((p!"m" ++ natStr n) :: es.map (fun e => p!"     " ++ e.1 ++ p!"  " ++ e.2.1)) (p!"m" ++ natStr n)
      (es.map (fun e => p!"     " ++ e.1 ++ p!"  " ++ e.2.1)) :=
    ⟨[], [], by simp, by simp, ⟨'m', [], by simp, .inl rfl, .inl rfl⟩, fun l hl => .inl (hcont l hl), by simp⟩
  have hw : cardWords splitWs (p!"m" ++ natStr n) (es.map (fun e => p!"     " ++ e.1 ++ p!"  " ++ e.2.1)) =
      es.flatMap (fun e => [e.1, e.2.1]) := by
    have := C83_words n 'm' [] (es.map (fun e => p!"     " ++ e.1 ++ p!"  " ++ e.2.1)) splitWs isWords_splitWs (.inl rfl) (.inl rfl)
    rw [List.append_nil] at this
    refine this.trans ?_
    rw [List.filter_eq_self.2 (fun l hl => by simpa using hcont l hl), List.flatMap_map]
    show splitWs [] ++ _ = _
    rw [show splitWs [] = [] from rfl, List.nil_append]
    have key : ∀ es : List (Str × Str × F), (∀ e ∈ es, splitWs (lower (code (p!"     " ++ e.1 ++ p!"  " ++ e.2.1))) = [e.1, e.2.1]) →
        es.flatMap (fun e => splitWs (lower (code (p!"     " ++ e.1 ++ p!"  " ++ e.2.1)))) = es.flatMap (fun e => [e.1, e.2.1]) := by
      intro es h
      induction es with
      | nil => rfl
      | cons e es ih => rw [List.flatMap_cons, List.flatMap_cons, h e (by simp), ih (fun e he => h e (by simp [he]))]
    apply key
    intro e he
    rw [hplain e he]
    apply isWords_iff.1
    have w1 := (h1 e he).1
    have w2 := (h2 e he).1
    have s2 : IsWords (p!"  " ++ e.2.1) [e.2.1] := by
      have := IsWords.word (pre := p!"  ") (rest := []) (by unfold Blank; decide) w2 (by simp) (.blank (by unfold Blank; simp))
      simpa using this
    have := IsWords.word (pre := p!"     ") (rest := p!"  " ++ e.2.1) (by unfold Blank; decide) w1 (by simp; decide) s2
    simpa using this
  have hneq : ∀ w ∈ es.flatMap (fun e => [e.1, e.2.1]), '=' ∉ w := by
    intro w hw h
    obtain ⟨e, he, hm⟩ := List.mem_flatMap.1 hw
    simp only [List.mem_cons, List.not_mem_nil, or_false] at hm
    rcases hm with rfl | rfl
    · exact ((h1 e he).2 _ h).2.2 rfl
    · exact ((h2 e he).2 _ h).2.2 rfl
  obtain ⟨m, k1, k2, k3, k4, k5, _⟩ := C83_material flt n _ _ _ splitWs isWords_splitWs hcard es hf
    (by rw [hw, List.filter_eq_self.2 (fun w h => by simpa using hneq w h)])
    (by rw [hw]; exact fun w h h' => absurd h' (hneq w h))
  exact ⟨m, k1, k2, k3, k4, k5⟩

/-- C249 (part that holds): the card made from an inventory is read back with one entry for each identifier: the number
    1000 Z + A with `.0`, and the printed fraction of the atoms (the last one, if several nuclides have the same identifier).
    Missing: the library suffix (`C249_suffix_violated`) and isomers (`C249_isomer_violated`). -/
theorem C249_read_partial (flt : Str → Option F) (fmtN : Option K → Str) (g : K → F) (n : Nat) (inv : List (Row K)) (lib : Str)
    (zs as : List Nat) (xs : List K)
    (hz : inv.map (fun r => Constants.zDict.get r.element) = zs.map some)
    (ha : inv.map (·.a) = as.map .int) (hx : inv.map (·.atoms) = xs.map some) (htot : xs.sum ≠ 0)
    (hfmt : ∀ x ∈ xs, CardNumber (fmtN (some (x / xs.sum))) ∧ flt (fmtN (some (x / xs.sum))) = some (g (x / xs.sum))) :
    ∃ out m, outputMcnpMat zaidText fmtN inv lib = .ok out ∧ readMaterialLines flt n (matCard n out) = .ok m ∧ m.number = n ∧
      m.composition.keys.Nodup ∧
      (∀ z y, m.composition.get z = some y ↔
        LastWins (List.zipWith (fun za x => (natStr za ++ p!".0", g (x / xs.sum))) (List.zipWith (fun z a => 1000 * z + a) zs as) xs) z y) ∧
      m.numNuclides = ((List.zipWith (fun z a => 1000 * z + a) zs as).map (fun za => natStr za ++ p!".0")).dedup.length := by
  obtain ⟨out, ho, hl⟩ := out_lines fmtN xs.sum htot inv zs as xs hz ha hx
  have hlen : (List.zipWith (fun z a => 1000 * z + a) zs as).length = xs.length := by
    have l1 := congrArg List.length hz
    have l2 := congrArg List.length ha
    have l3 := congrArg List.length hx
    simp only [List.length_map] at l1 l2 l3
    rw [List.length_zipWith]
    omega
  generalize List.zipWith (fun z a => 1000 * z + a) zs as = zas at hl hlen ⊢
  set es : List (Str × Str × F) := List.zipWith (fun za x => (natStr za ++ p!".0", fmtN (some (x / xs.sum)), g (x / xs.sum))) zas xs
    with hes
  have mem : ∀ e ∈ es, (∃ za, e.1 = natStr za ++ p!".0") ∧ ∃ x ∈ xs, e.2.1 = fmtN (some (x / xs.sum)) ∧ e.2.2 = g (x / xs.sum) := by
    intro e he
    rw [hes, ← List.map_uncurry_zip_eq_zipWith] at he
    obtain ⟨p, hp, rfl⟩ := List.mem_map.1 he
    exact ⟨⟨p.1, rfl⟩, p.2, (List.of_mem_zip hp).2, rfl, rfl⟩
  obtain ⟨m, k1, k2, k3, k4, k5⟩ := read_lines flt n es
    (by intro e he; obtain ⟨⟨za, h⟩, _⟩ := mem e he; rw [h]; exact cardNumber_zaid za)
    (by intro e he; obtain ⟨_, x, hx, h, _⟩ := mem e he; rw [h]; exact (hfmt x hx).1)
    (by intro e he; obtain ⟨_, x, hx, h, h'⟩ := mem e he; rw [h, h']; exact (hfmt x hx).2)
  refine ⟨out, m, ?_, ?_, k2, k4, ?_, ?_⟩
  · unfold outputMcnpMat
    rw [total_eq hx]
    exact ho
  · have hlines : out.map (·.output) = es.map (fun e => p!"     " ++ e.1 ++ p!"  " ++ e.2.1) := by
      rw [hl, matEntries, List.map_zipWith, hes, List.map_zipWith]
    unfold matCard
    rw [hlines]
    exact k1
  · intro z y
    rw [k3, hes, List.map_zipWith]
  · rw [k5, hes, List.map_zipWith]
    have := zipWith_left (fun za => natStr za ++ p!".0") zas xs hlen
    rw [this]

/-- C249 is violated for every inventory and every suffix other than `.0`: no entry of the card has the identifier of a nuclide
    with the suffix that was asked for. -/
theorem C249_suffix_violated (flt : Str → Option F) (fmtN : Option K → Str) (g : K → F) (n : Nat) (inv : List (Row K)) (lib : Str)
    (zs as : List Nat) (xs : List K)
    (hz : inv.map (fun r => Constants.zDict.get r.element) = zs.map some)
    (ha : inv.map (·.a) = as.map .int) (hx : inv.map (·.atoms) = xs.map some) (htot : xs.sum ≠ 0)
    (hfmt : ∀ x ∈ xs, CardNumber (fmtN (some (x / xs.sum))) ∧ flt (fmtN (some (x / xs.sum))) = some (g (x / xs.sum)))
    (hlib : lib ≠ p!".0") (hdot : lib.head? = some '.') :
    ∃ out m, outputMcnpMat zaidText fmtN inv lib = .ok out ∧ readMaterialLines flt n (matCard n out) = .ok m ∧
      ∀ za, m.composition.get (natStr za ++ lib) = none := by
  obtain ⟨out, m, h1, h2, _, _, h5, _⟩ := C249_read_partial flt fmtN g n inv lib zs as xs hz ha hx htot hfmt
  refine ⟨out, m, h1, h2, fun za => ?_⟩
  by_contra hne
  obtain ⟨y, hy⟩ := Option.ne_none_iff_exists'.1 hne
  obtain ⟨a, b, hab, _⟩ := (h5 _ _).1 hy
  have hm : (natStr za ++ lib, y) ∈ List.zipWith (fun za x => (natStr za ++ p!".0", g (x / xs.sum)))
      (List.zipWith (fun z a => 1000 * z + a) zs as) xs := by rw [hab]; simp
  rw [← List.map_uncurry_zip_eq_zipWith] at hm
  obtain ⟨p, _, hp⟩ := List.mem_map.1 hm
  have hp1 : natStr p.1 ++ p!".0" = natStr za ++ lib := (Prod.mk.inj hp).1
  have tw : ∀ (k : Nat) (t : Str), t.head? = some '.' → (natStr k ++ t).dropWhile isDigit = t := by
    intro k t ht
    show (natStr k ++ t).dropWhile (fun c => c.isDigit) = t
    rw [List.dropWhile_append_of_pos (fun c hc => natStr_isDigit hc)]
    cases t with
    | nil => simp at ht
    | cons c t =>
      simp only [List.head?_cons, Option.some.injEq] at ht
      subst ht
      rfl
  have := congrArg (List.dropWhile isDigit) hp1
  rw [tw _ _ rfl, tw _ _ hdot] at this
  exact hlib this.symm

/-- C249 is violated for isomers: if two nuclides have the same identifier, the card has fewer entries than the inventory has
    nuclides, so a fraction is lost. -/
theorem C249_isomer_violated (flt : Str → Option F) (fmtN : Option K → Str) (g : K → F) (n : Nat) (inv : List (Row K)) (lib : Str)
    (zs as : List Nat) (xs : List K)
    (hz : inv.map (fun r => Constants.zDict.get r.element) = zs.map some)
    (ha : inv.map (·.a) = as.map .int) (hx : inv.map (·.atoms) = xs.map some) (htot : xs.sum ≠ 0)
    (hfmt : ∀ x ∈ xs, CardNumber (fmtN (some (x / xs.sum))) ∧ flt (fmtN (some (x / xs.sum))) = some (g (x / xs.sum)))
    (hdup : ¬ (List.zip zs as).Nodup) :
    ∃ out m, outputMcnpMat zaidText fmtN inv lib = .ok out ∧ readMaterialLines flt n (matCard n out) = .ok m ∧
      m.numNuclides < inv.length := by
  obtain ⟨out, m, h1, h2, _, _, _, h6⟩ := C249_read_partial flt fmtN g n inv lib zs as xs hz ha hx htot hfmt
  refine ⟨out, m, h1, h2, ?_⟩
  have hlen : inv.length = (List.zip zs as).length := by
    have l1 := congrArg List.length hz
    have l2 := congrArg List.length ha
    simp only [List.length_map] at l1 l2
    rw [List.length_zip]
    omega
  rw [h6, hlen, ← List.map_uncurry_zip_eq_zipWith, List.map_map]
  set t := (List.zip zs as).map ((fun za => natStr za ++ p!".0") ∘ Function.uncurry (fun z a => 1000 * z + a)) with ht
  have hl : t.length = (List.zip zs as).length := by rw [ht, List.length_map]
  rw [← hl]
  refine lt_of_le_of_ne (List.dedup_sublist t).length_le (fun he => ?_)
  have : t.dedup = t := (List.dedup_sublist t).eq_of_length he
  rw [List.dedup_eq_self, ht] at this
  exact hdup (List.Nodup.of_map _ this)

example : (outputMcnpMat zaidText (fun _ => p!"5.00000e-01") [exRow p!"H" 1 0 2, exRow p!"O" 16 0 2] p!".70c" >>= fun out =>
    readMaterialLines (fun s => if s = p!"5.00000e-01" then some (1/2 : ℚ) else none) 1 (matCard 1 out) >>= fun m => pure m.composition) =
    .ok [(p!"1001.0", 1/2), (p!"8016.0", 1/2)] := by decide +kernel

example : (outputMcnpMat zaidText (fun _ => p!"5.00000e-01") [exRow p!"Ag" 108 0 2, exRow p!"Ag" 108 0 2] p!".70c" >>= fun out =>
    readMaterialLines (fun s => if s = p!"5.00000e-01" then some (1/2 : ℚ) else none) 1 (matCard 1 out) >>= fun m => pure m.composition) =
    .ok [(p!"47108.0", 1/2)] := by decide +kernel

end Props
