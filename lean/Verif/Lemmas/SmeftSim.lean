import Verif.Lemmas.SmeftSimRows
import Verif.Lemmas.Dsix

/-! Reading the SMEFTsim card; the symmetrized entries. -/

set_option autoImplicit false
set_option linter.unusedSimpArgs false

namespace Verif.SmeftSim
open Verif Verif.EFT Verif.EFT.Util Verif.Beta Verif.Bridge Verif.Spec Verif.Reflect Verif.Dsix Verif.Props

attribute [local irreducible] Gen.rowsA Gen.rowsB

variable {U : Util}

/-! ### labels -/

theorem label_inj (set : ModelSet) (wc wc' : WC) (lam lam' : ℝ) {r r' : Row} (hr : r ∈ rowsOf set) (hr' : r' ∈ rowsOf set)
    (e : (fillRow U wc lam (blocksOf set) (stemsOf set) r).label = (fillRow U wc' lam' (blocksOf set) (stemsOf set) r').label) :
    r = r' := by
  refine List.inj_on_of_nodup_map (label_codes_nodup set) hr hr' ?_
  cases r with
  | cutoff b pos =>
    cases r' with
    | cutoff b' pos' => rfl
    | coef => simp [fillRow] at e
  | coef b pos kind k fl st p dg =>
    cases r' with
    | cutoff b' pos' => simp [fillRow] at e
    | coef b' pos' kind' k' fl' st' p' dg' =>
      simp only [fillRow, Label.coef.injEq] at e
      obtain ⟨e1, rfl, rfl⟩ := e
      have h1 := row_ok set hr
      have h2 := row_ok set hr'
      simp only [rowOK, Bool.and_eq_true, decide_eq_true_eq] at h1 h2
      obtain rfl := stem_inj set h1.1.1.1.1.1 h2.1.1.1.1.1 e1
      rfl

theorem labels_nodup (U : Util) (wc : WC) (set : ModelSet) (lam : ℝ) (scheme : Scheme) :
    ((cardFill U wc set lam scheme).map (·.label)).Nodup := by
  unfold cardFill
  rw [List.map_append, List.map_map]
  refine List.nodup_append.2 ⟨?_, ?_, ?_⟩
  · exact List.Nodup.map_on (fun r hr r' hr' e => label_inj (U := U) set wc wc lam lam hr hr' e)
      (List.Nodup.of_map _ (label_codes_nodup set))
  · split <;> simp
  · intro a ha b hb
    obtain ⟨r, -, rfl⟩ := List.mem_map.1 ha
    split at hb
    · simp only [List.map_cons, List.map_nil, List.mem_singleton] at hb
      subst hb
      cases r <;> simp [fillRow]
    · simp at hb

theorem find_label {card : List Entry} (h : (card.map (·.label)).Nodup) {e : Entry} (he : e ∈ card) :
    card.find? (fun e' => decide (e'.label = e.label)) = some e := by
  induction card with
  | nil => cases he
  | cons a l ih =>
    rw [List.map_cons, List.nodup_cons] at h
    rcases List.mem_cons.1 he with rfl | he
    · simp
    · have : a.label ≠ e.label := fun ea => h.1 (ea ▸ List.mem_map.2 ⟨e, he, rfl⟩)
      rw [List.find?_cons_of_neg (by simpa using this), ih h.2 he]

theorem realAt_mem {card : List Entry} (h : (card.map (·.label)).Nodup) {b : Str} {pos : List ℕ} {x : ℝ} {l : Label}
    (he : (⟨b, pos, .real x, l⟩ : Entry) ∈ card) : realAt card l = some x := by
  have := find_label h he
  unfold realAt
  rw [this]

/-! ### symmetrized entries -/

theorem shape_two {k : Key} (h : rankOf k = 2) : shapeK k = some [3, 3] := by simp [shapeK, h]
theorem shape_four {k : Key} (h : rankOf k = 4) : shapeK k = some [3, 3, 3, 3] := by simp [shapeK, h]

theorem symmFac_ne (hS : IsSmeft U) {k : Key} (hk : k ∈ coeffKeys) (fl : List ℕ) : symmFac U k fl ≠ 0 := by
  unfold symmFac
  rw [C21_scale_factor U _ _ (hS.cls k hk)]
  split
  · rename_i d a b c e hd
    have n4 : ∀ i, d4 i ≠ 0 := fun i h => d4_ne i (by rw [h]; simp)
    have n6 : ∀ i, d6 i ≠ 0 := fun i h => d6_ne i (by rw [h]; simp)
    have n7 : ∀ i, d7 i ≠ 0 := fun i h => d7_ne i (by rw [h]; simp)
    split at hd
    · cases hd; exact n4 _
    split at hd
    · cases hd; exact n6 _
    split at hd
    · cases hd; exact n7 _
    · cases hd
  · simp

theorem class_ne8 {k : Key} (hk : k ∈ coeffKeys) (hs : k ∉ notInSim) : fullClass k ≠ 8 := by
  have : ∀ k ∈ coeffKeys, k ∉ notInSim → fullClass k ≠ 8 := by decide +kernel
  exact this k hk hs

theorem symmFac_four {k : Key} {f : I4 → ℕ} (h : U.scaleTable (keyName k) = some f) (i : I4) :
    symmFac U k (idx4 i) = f i := by
  obtain ⟨a, b, c, e⟩ := i
  unfold symmFac
  rw [h]
  simp only [idx4, ofNat_val]

theorem symmFac_none {k : Key} (h : U.scaleTable (keyName k) = none) (fl : List ℕ) : symmFac U k fl = 1 := by
  unfold symmFac
  rw [h]

/-- the symmetrized array at a non-redundant entry: the coefficient divided by its factor -/
theorem entry_read (hS : IsSmeft U) (d : Dict Str ℂ) (hd : d.NodupKeys) (hk : ∀ n ∈ d.keys, n ∈ U.allWcs)
    {C : Dict Str AVal} (hC : U.wcxf2arraysSymmetrized d = .ok C) {k : Key} (hkc : k ∈ coeffKeys) (hs : k ∉ notInSim)
    {fl : List ℕ} {r : Prop} [Decidable r] (h : IsEntry k fl r) :
    (symmFac U k fl : ℂ) * entryOf C k fl =
      if r then ((((d.get? (fullName k fl)).getD 0).re : ℝ) : ℂ) else (d.get? (fullName k fl)).getD 0 := by
  obtain ⟨C', e, n, F, hno, hyes⟩ := readSym hS.regular hS.complete d hd hk
  rw [e, Except.ok.injEq] at hC
  subst hC
  have hK := keyOK_of hS hkc
  have hg := hyes _ ((hS.wc _).2 ⟨k, hkc, rfl⟩) _ _ hK
  have h8 := class_ne8 hkc hs
  have hT := C21_scale_factor U _ _ (hS.cls k hkc)
  unfold entryOf
  rw [hg]
  cases h with
  | scalar h =>
    have hc : fullClass k = 0 := hK.h0.1 (by simp [shapeK, h])
    have hsh : shapeK k = none := by simp [shapeK, h]
    rw [hc] at hT
    rw [hsh, hc, symmFac_none hT]
    simp [given, padF, symF, realVal, cutF, fullName]
  | two i h hn =>
    have hsh := shape_two h
    rw [hsh] at hK hg ⊢
    have hfit := fits_given d (keyName k) (some [3, 3])
    have hi : inRange [3, 3] (idx2 i) = true := in2 i
    have hp := pipe_entry2 hK hfit rfl hi hn
    have hne : idx2 i ≠ [] := by obtain ⟨a, b⟩ := i; simp [idx2]
    have hrank : fullClass k = 1 ∨ fullClass k = 2 ∨ fullClass k = 9 := by
      have := (hK.hl _ rfl).1
      have hc := hK.hc
      simp only [List.length_cons, List.length_nil, rank] at this
      by_contra hcon
      simp only [not_or] at hcon
      simp [hcon.1, hcon.2.1, hcon.2.2] at this
      split at this <;> omega
    have hsca : scaF (fullClass k) = id := by
      unfold scaF
      rcases hrank with h | h | h <;> rw [h] <;> rfl
    have hu8 : u8F (fullClass k) = id := by unfold u8F; rw [if_neg h8]
    unfold pipe at hp
    rw [hsca, hu8, ent2_cutF _ _ _ hi] at hp
    simp only [id, ent2_padF] at hp
    have hval : (d.get? (fullName k (idx2 i))).getD 0 = ent2 (given d (keyName k) (some [3, 3])) i := by
      unfold fullName
      rw [if_neg hne]
      simp [given, ent2, collect, hi]
    rw [hval]
    have hfit2 : Fits (some [3, 3]) (cutF (some [3, 3]) (symF (fullClass k) (padF (given d (keyName k) (some [3, 3]))))) :=
      fits_cutF (symm_step hK (padded_padF (fun l e => (hK.hl l e).2) hfit)).2
    cases hv : cutF (some [3, 3]) (symF (fullClass k) (padF (given d (keyName k) (some [3, 3])))) with
    | num z => rw [hv] at hfit2; simp [Fits] at hfit2
    | arr a =>
      rw [hv] at hp
      have : (fullClass k = 4 ∨ fullClass k = 41) = False ∧ (fullClass k = 6) = False ∧ (fullClass k = 7 ∨ fullClass k = 71) = False := by
        rcases hrank with h | h | h <;> simp [h]
      simp only [this.1, this.2.1, this.2.2, if_false] at hT
      rw [symmFac_none hT, Nat.cast_one, one_mul]
      exact Eq.trans rfl (hp.trans (by split_ifs <;> rfl))
  | four i h hn =>
    have hsh := shape_four h
    rw [hsh] at hK hg ⊢
    have hfit := fits_given d (keyName k) (some [3, 3, 3, 3])
    have hi : inRange [3, 3, 3, 3] (idx4 i) = true := in4 i
    have hp := pipe_entry4 hK hfit rfl hi hn
    have hne : idx4 i ≠ [] := by obtain ⟨a, b, c, e⟩ := i; simp [idx4]
    have hu8 : u8F (fullClass k) = id := by unfold u8F; rw [if_neg h8]
    have hP := padded_padF (fun l e => (hK.hl l e).2) hfit
    have hfit2 : Fits (some [3, 3, 3, 3]) (cutF (some [3, 3, 3, 3]) (symF (fullClass k) (padF (given d (keyName k) (some [3, 3, 3, 3]))))) :=
      fits_cutF (symm_step hK hP).2
    have hP2 := padded_padF (fun l e => (hK.hl l e).2) hfit2
    unfold pipe at hp
    rw [hu8, ent4_cutF _ _ _ hi, id] at hp
    have hval : (d.get? (fullName k (idx4 i))).getD 0 = ent4 (given d (keyName k) (some [3, 3, 3, 3])) i := by
      unfold fullName
      rw [if_neg hne]
      simp [given, ent4, collect, hi]
    rw [hval]
    cases hv : cutF (some [3, 3, 3, 3]) (symF (fullClass k) (padF (given d (keyName k) (some [3, 3, 3, 3])))) with
    | num z => rw [hv] at hfit2; simp [Fits] at hfit2
    | arr a =>
      rw [hv] at hp hP2
      have hent : a.get (idx4 i) = ent4 (.arr a) i := rfl
      simp only [hent]
      by_cases h4 : fullClass k = 4 ∨ fullClass k = 41
      · rw [if_pos h4] at hT
        rw [symmFac_four hT]
        rw [show scaF (fullClass k) = op4 (fun b i => (d4 i : ℂ) * b i) by unfold scaF; rw [if_pos h4], ent_op4 hP2, ent4_padF] at hp
        exact Eq.trans rfl (hp.trans (by split_ifs <;> rfl))
      · by_cases h6 : fullClass k = 6
        · rw [if_neg h4, if_pos h6] at hT
          rw [symmFac_four hT]
          rw [show scaF (fullClass k) = op4 (fun b i => (d6 i : ℂ) * b i) by unfold scaF; rw [if_neg h4, if_pos h6], ent_op4 hP2, ent4_padF] at hp
          exact Eq.trans rfl (hp.trans (by split_ifs <;> rfl))
        · by_cases h7 : fullClass k = 7 ∨ fullClass k = 71
          · rw [if_neg h4, if_neg h6, if_pos h7] at hT
            rw [symmFac_four hT]
            rw [show scaF (fullClass k) = op4 (fun b i => (d7 i : ℂ) * b i) by unfold scaF; rw [if_neg h4, if_neg h6, if_pos h7], ent_op4 hP2, ent4_padF] at hp
            exact Eq.trans rfl (hp.trans (by split_ifs <;> rfl))
          · rw [if_neg h4, if_neg h6, if_neg h7] at hT
            rw [symmFac_none hT]
            rw [show scaF (fullClass k) = id by unfold scaF; rw [if_neg h4, if_neg h6, if_neg h7], id, ent4_padF] at hp
            simp only [Nat.cast_one, one_mul]
            exact Eq.trans rfl (hp.trans (by split_ifs <;> rfl))

/-- entries related by a symmetry of the operator are equal -/
theorem entry_sym (hS : IsSmeft U) (d : Dict Str ℂ) (hd : d.NodupKeys) (hk : ∀ n ∈ d.keys, n ∈ U.allWcs)
    {C : Dict Str AVal} (hC : U.wcxf2arraysSymmetrized d = .ok C) {k : Key} (hkc : k ∈ coeffKeys)
    {fl : List ℕ} {r : Prop} (h : IsEntry k fl r) :
    entryOf C k (labelDigits k fl) = entryOf C k fl := by
  obtain ⟨C', e, hG⟩ := good_read hS d hd hk
  rw [e, Except.ok.injEq] at hC
  subst hC
  unfold labelDigits
  split
  · rename_i hc
    obtain ⟨rfl, hm⟩ := hc
    obtain ⟨v, hv, hf, hsy⟩ := hG.have_ k hkc
    unfold entryOf
    rw [hv]
    cases v with
    | num z => rfl
    | arr a =>
      have hcls : ∀ k ∈ [Key.ll, .qq1, .qq3, .uu, .dd, .ee], fullClass k = 4 ∨ fullClass k = 6 := by decide +kernel
      rcases hcls k hm with h4 | h6
      · exact (hsy.2.2.1 h4 1 2 2 2).1
      · exact (hsy.2.2.2.2.2.1 h6 1 2 2 2).1
  split
  · rename_i hc
    obtain ⟨rfl, rfl⟩ := hc
    obtain ⟨v, hv, hf, hsy⟩ := hG.have_ _ hkc
    unfold entryOf
    rw [hv]
    cases v with
    | num z => rfl
    | arr a =>
      have h6 : fullClass .ee = 6 := by decide +kernel
      exact (hsy.2.2.2.2.2.1 h6 0 1 1 2).2.2
  · rfl

end Verif.SmeftSim
