import Verif.Lemmas.WetEntry

/-!
# Flavour charges of the coefficients
-/

set_option autoImplicit false
set_option linter.unusedSimpArgs false

namespace Verif.WetTab
open Verif Verif.Rotation Verif.WetRun

/-! ## Charges as digits -/

/-- the number of a species -/
def Sp.no : Sp → ℕ
  | .u => 0
  | .d => 1
  | .e => 2
  | .nu => 3

/-- the number of a flavour -/
def fno (sp : Sp) (i : ℕ) : ℕ := Nat.add (Nat.mul 100 i) sp.no

/-- 8 plus the charge -/
def chDigit (x : ℕ) : List Fld → List ℕ → ℕ
  | F :: fs, i :: is => match Nat.beq (fno F.sp i) x with
    | true => match F.bar with
      | true => Nat.pred (chDigit x fs is)
      | false => Nat.succ (chDigit x fs is)
    | false => chDigit x fs is
  | _, _ => 8

theorem Sp.no_lt (s : Sp) : s.no < 4 := by cases s <;> decide

theorem Sp.no_inj {s t : Sp} (h : s.no = t.no) : s = t := by
  cases s <;> cases t <;> first | rfl | exact absurd h (by decide)

theorem fno_inj {s t : Sp} {i j : ℕ} : fno s i = fno t j ↔ (s, i) = (t, j) := by
  constructor
  · intro h
    have h : 100 * i + s.no = 100 * j + t.no := h
    have h1 := s.no_lt
    have h2 := t.no_lt
    obtain rfl : i = j := by omega
    rw [Sp.no_inj (s := s) (t := t) (by omega)]
  · rintro h
    obtain ⟨rfl, rfl⟩ := Prod.mk.inj h
    rfl

/-- charge of a list of fields -/
def chargeL (fs : List Fld) (ix : List ℕ) (x : Sp × ℕ) : ℤ :=
  ((fs.zip ix).map fun Fi =>
    if (Fi.1.sp, Fi.2) = x then (if Fi.1.bar then (-1 : ℤ) else 1) else 0).sum

theorem charge_eq (c : Coef) (x : Sp × ℕ) : charge c x = chargeL (fields c.1) (ixOf c) x := rfl

theorem chDigit_eq (fs : List Fld) (ix : List ℕ) (x : Sp × ℕ) (h : fs.length ≤ 4) :
    (chDigit (fno x.1 x.2) fs ix : ℤ) = 8 + chargeL fs ix x ∧
      8 ≤ chDigit (fno x.1 x.2) fs ix + fs.length ∧ chDigit (fno x.1 x.2) fs ix ≤ 8 + fs.length := by
  induction fs generalizing ix with
  | nil => simp [chDigit, chargeL]
  | cons F fs ih =>
    cases ix with
    | nil => simp [chDigit, chargeL]
    | cons i is =>
      have hl : fs.length + 1 ≤ 4 := h
      obtain ⟨h1, h2, h3⟩ := ih is (by omega)
      have e : chargeL (F :: fs) (i :: is) x =
          (if (F.sp, i) = x then (if F.bar then (-1 : ℤ) else 1) else 0) + chargeL fs is x := by
        simp [chargeL]
      rw [e, List.length_cons, chDigit]
      by_cases hx : (F.sp, i) = x
      · have hb : Nat.beq (fno F.sp i) (fno x.1 x.2) = true := by
          rw [Nat.beq_eq, fno_inj]; exact hx
        rw [hb, if_pos hx]
        cases F.bar
        · simp only [Nat.succ_eq_add_one]
          refine ⟨?_, by omega, by omega⟩
          push_cast; rw [h1]; ring
        · simp only [Nat.pred_eq_sub_one]
          refine ⟨?_, by omega, by omega⟩
          rw [Nat.cast_sub (by omega), h1]; simp; ring
      · have hb : Nat.beq (fno F.sp i) (fno x.1 x.2) = false := by
          rw [← Bool.not_eq_true, Nat.beq_eq, fno_inj]; exact hx
        rw [hb, if_neg hx]
        dsimp only
        exact ⟨by rw [zero_add]; exact h1, by omega, by omega⟩

theorem fields_le (k : WKey) : (fields k).length ≤ 4 := by cases k <;> decide

/-- the digits of a coefficient -/
def digitsOf (l : List (Sp × ℕ)) (c : Coef) : List ℕ :=
  l.map fun x => chDigit (fno x.1 x.2) (fields c.1) (ixOf c)

theorem digitsOf_lt (l : List (Sp × ℕ)) (c : Coef) : ∀ d ∈ digitsOf l c, d < 2 ^ 4 := by
  intro d hd
  obtain ⟨x, _, rfl⟩ := List.mem_map.1 hd
  have := (chDigit_eq (fields c.1) (ixOf c) x (fields_le c.1)).2.2
  have := fields_le c.1
  norm_num
  omega

theorem digitsOf_eq {l : List (Sp × ℕ)} {a b : Coef} :
    digitsOf l a = digitsOf l b ↔ ∀ x ∈ l, charge a x = charge b x := by
  rw [digitsOf, digitsOf, List.map_inj_left]
  refine forall₂_congr fun x _ => ?_
  have h1 := (chDigit_eq (fields a.1) (ixOf a) x (fields_le a.1)).1
  have h2 := (chDigit_eq (fields b.1) (ixOf b) x (fields_le b.1)).1
  rw [charge_eq, charge_eq]
  constructor <;> intro h <;> omega

theorem pack_inj {w : ℕ} {l l' : List ℕ} (h : ∀ c ∈ l, c < 2 ^ w) (h' : ∀ c ∈ l', c < 2 ^ w)
    (hl : l.length = l'.length) (e : pack w l = pack w l') : l = l' := by
  refine List.ext_getElem hl fun q h1 h2 => ?_
  have e1 := blk_pack h q
  have e2 := blk_pack h' q
  rw [e, e2] at e1
  simpa [List.getD_eq_getElem?_getD, h1, h2] using e1.symm

/-- the charges of a coefficient, for the kernel -/
def chCode (c : Coef) : ℕ := forceIx (ixOf c) fun ix =>
  pack 4 (allFlavours.map fun x => chDigit (fno x.1 x.2) (fields c.1) ix)

theorem chCode_eq (c : Coef) : chCode c = pack 4 (digitsOf allFlavours c) := by
  rw [chCode, forceIx_eq]; rfl

theorem chCode_inj {a b : Coef} (h : chCode a = chCode b) : ∀ x ∈ allFlavours, charge a x = charge b x := by
  rw [chCode_eq, chCode_eq] at h
  refine digitsOf_eq.1 (pack_inj (digitsOf_lt _ _) (digitsOf_lt _ _) ?_ h)
  simp [digitsOf]

/-- the coefficients of the wrong orientation -/
def wrong (c : Coef) : Bool :=
  match c.1 with
  | .VddLL | .VddRR => Nat.beq c.2 1231
  | _ => false

/-- coefficients that mix have the same charges -/
def chargeRowsOK (N m : ℕ) (R : Rows) : Bool :=
  rowsAll (fun i j _ => Nat.beq (Nat.mod (Nat.shiftRight N (Nat.mul 64 i)) 18446744073709551616)
      (Nat.mod (Nat.shiftRight N (Nat.mul 64 j)) 18446744073709551616) ||
    (Nat.testBit m i || Nat.testBit m j)) 0 R

/-- both matrices of a sector -/
def chargeOK (S : Sec) : Bool :=
  force (pack 64 (S.coefs.map chCode)) fun N => force (maskOf wrong S.coefs) fun m =>
    chargeRowsOK N m S.rE && chargeRowsOK N m S.rS

theorem secs_chargeOK : secs.all chargeOK = true := by decide +kernel

/-! ## Sectors -/

/-- the identifying number of the flavour change of a coefficient: the smaller one of those of the
operator and its conjugate, with the number of neutrinos -/
def sectorKey (c : Coef) : ℕ :=
  forceIx (ixOf c) fun ix =>
    force (pack 4 (flavours.map fun x => chDigit (fno x.1 x.2) (fields c.1) ix)) fun A =>
    force (Nat.sub 4581298448 A) fun B =>
    Nat.add (Nat.mul 8589934592 (neutrinos c)) (match Nat.ble A B with
      | true => A
      | false => B)

/-- all coefficients of a sector have the same number -/
def keyConst (S : Sec) : Bool :=
  match S.coefs with
  | [] => true
  | c :: l => force (sectorKey c) fun k => l.all fun c => Nat.beq (sectorKey c) k

theorem secs_keyConst : secs.all keyConst = true := by decide +kernel

/-- the numbers of the sectors -/
def sectorKeys : List ℕ := secs.map fun S => match S.coefs with
  | [] => 0
  | c :: _ => sectorKey c

theorem sectorKeys_nodup : sectorKeys.Nodup := by decide +kernel


theorem pack_cons {w c : ℕ} {l : List ℕ} (h : c < 2 ^ w) : pack w (c :: l) = c + 2 ^ w * pack w l := by
  change c ||| (pack w l <<< w) = _
  rw [Nat.or_comm, ← Nat.shiftLeft_add_eq_or_of_lt h, Nat.shiftLeft_eq]
  ring

/-- the digits of the conjugate operator -/
theorem pack_neg (l : List ℕ) (h : ∀ d ∈ l, 1 ≤ d ∧ d < 2 ^ 4) :
    15 * (pack 4 l + pack 4 (l.map fun d => 16 - d)) + 16 = 16 * 16 ^ l.length := by
  induction l with
  | nil => simp [pack]
  | cons d l ih =>
    have hd := h d List.mem_cons_self
    norm_num at hd
    have := ih fun d hd => h d (List.mem_cons_of_mem _ hd)
    rw [List.map_cons, pack_cons (by norm_num; omega), pack_cons (by norm_num; omega), List.length_cons,
      pow_succ]
    norm_num
    omega

theorem flavour_digit (c : Coef) (x : Sp × ℕ) :
    (chDigit (fno x.1 x.2) (fields c.1) (ixOf c) : ℤ) = 8 + charge c x ∧
      4 ≤ chDigit (fno x.1 x.2) (fields c.1) (ixOf c) ∧
      chDigit (fno x.1 x.2) (fields c.1) (ixOf c) ≤ 12 := by
  have h := chDigit_eq (fields c.1) (ixOf c) x (fields_le c.1)
  have := fields_le c.1
  exact ⟨h.1, by omega, by omega⟩

/-- the code of the charges -/
def code8 (c : Coef) : ℕ := pack 4 (digitsOf flavours c)

theorem code8_eq_iff {a b : Coef} : code8 a = code8 b ↔ ∀ x ∈ flavours, charge a x = charge b x := by
  constructor
  · intro h
    refine digitsOf_eq.1 (pack_inj (digitsOf_lt _ _) (digitsOf_lt _ _) ?_ h)
    simp [digitsOf]
  · intro h
    rw [code8, code8, digitsOf_eq.2 h]

theorem code8_neg {a b : Coef} :
    code8 a + code8 b = 4581298448 ↔ ∀ x ∈ flavours, charge a x = -charge b x := by
  have hlt : ∀ d ∈ digitsOf flavours b, 1 ≤ d ∧ d < 2 ^ 4 := by
    intro d hd
    obtain ⟨x, _, rfl⟩ := List.mem_map.1 hd
    have := flavour_digit b x
    norm_num
    omega
  have h := pack_neg (digitsOf flavours b) hlt
  have hl : (digitsOf flavours b).length = 8 := by simp [digitsOf, flavours]
  rw [hl] at h
  norm_num at h
  have e : code8 a + code8 b = 4581298448 ↔
      pack 4 (digitsOf flavours a) = pack 4 ((digitsOf flavours b).map fun d => 16 - d) := by
    unfold code8
    omega
  have e' : pack 4 (digitsOf flavours a) = pack 4 ((digitsOf flavours b).map fun d => 16 - d) ↔
      digitsOf flavours a = (digitsOf flavours b).map fun d => 16 - d := by
    refine ⟨fun h => pack_inj (digitsOf_lt _ _) ?_ (by simp [digitsOf]) h, fun h => by rw [h]⟩
    intro d hd
    obtain ⟨d', hd', rfl⟩ := List.mem_map.1 hd
    have := hlt d' hd'
    norm_num at this ⊢
    omega
  rw [e, e', digitsOf, digitsOf, List.map_map, List.map_inj_left]
  refine forall₂_congr fun x _ => ?_
  have h1 := flavour_digit a x
  have h2 := flavour_digit b x
  simp only [Function.comp]
  constructor <;> intro h <;> omega

theorem sectorKey_eq (c : Coef) : sectorKey c =
    8589934592 * neutrinos c + min (code8 c) (4581298448 - code8 c) := by
  rw [sectorKey, forceIx_eq, force_eq, force_eq]
  change 8589934592 * neutrinos c + _ = _
  congr 1
  change (match Nat.ble (code8 c) (4581298448 - code8 c) with
    | true => code8 c
    | false => 4581298448 - code8 c) = _
  cases h : Nat.ble (code8 c) (4581298448 - code8 c) with
  | true => exact (min_eq_left (Nat.le_of_ble_eq_true h)).symm
  | false =>
    dsimp only
    refine (min_eq_right ?_).symm
    by_contra hn
    rw [Nat.ble_eq_true_of_le (by omega)] at h
    cases h

theorem code8_le (c : Coef) : code8 c ≤ 4581298448 := by
  have hlt : ∀ d ∈ digitsOf flavours c, 1 ≤ d ∧ d < 2 ^ 4 := by
    intro d hd
    obtain ⟨x, _, rfl⟩ := List.mem_map.1 hd
    have := flavour_digit c x
    norm_num
    omega
  have h := pack_neg (digitsOf flavours c) hlt
  have hl : (digitsOf flavours c).length = 8 := by simp [digitsOf, flavours]
  rw [hl] at h
  norm_num at h
  unfold code8
  omega

/-- the number identifies the flavour change -/
theorem sectorKey_iff (a b : Coef) : sectorKey a = sectorKey b ↔ SameFlavour a b := by
  rw [sectorKey_eq, sectorKey_eq, SameFlavour, ← code8_eq_iff, ← code8_neg]
  have h1 := code8_le a
  have h2 := code8_le b
  rcases le_total (code8 a) (4581298448 - code8 a) with ha | ha <;>
    rcases le_total (code8 b) (4581298448 - code8 b) with hb | hb <;>
    simp only [min_eq_left ha, min_eq_right ha, min_eq_left hb, min_eq_right hb] <;> omega

theorem keyConst_spec {S : Sec} (h : S ∈ secs) {a b : Coef} (ha : a ∈ S.coefs) (hb : b ∈ S.coefs) :
    sectorKey a = sectorKey b := by
  have h0 := List.all_eq_true.1 secs_keyConst S h
  rw [keyConst] at h0
  cases hS : S.coefs with
  | nil => rw [hS] at ha; cases ha
  | cons c l =>
    rw [hS] at h0 ha hb
    simp only [force_eq] at h0
    have key : ∀ d ∈ c :: l, sectorKey d = sectorKey c := by
      intro d hd
      rcases List.mem_cons.1 hd with rfl | hd
      · rfl
      · exact Nat.eq_of_beq_eq_true (List.all_eq_true.1 h0 d hd)
    rw [key a ha, key b hb]

/-- coefficients are in the same sector if and only if they change the same flavours -/
theorem sector_iff {a b : Coef} {s t : String} {i j : ℕ} (ha : Listed a s i) (hb : Listed b t j) :
    s = t ↔ SameFlavour a b := by
  obtain ⟨n, S, hA⟩ := ha.at
  obtain ⟨m, T, hB⟩ := hb.at
  rw [hA.sector_iff hB, ← sectorKey_iff]
  have hk : ∀ {a : Coef} {s : String} {i n : ℕ} {S : Sec}, At a s i n S →
      sectorKeys[n]? = some (sectorKey a) := by
    intro a s i n S h
    rw [sectorKeys, List.getElem?_map, h.sec, Option.map_some]
    congr 1
    have hm := List.mem_of_getElem? h.coef
    cases hS : S.coefs with
    | nil => rw [hS] at hm; cases hm
    | cons c l => exact keyConst_spec h.mem (by rw [hS]; exact List.mem_cons_self) hm
  constructor
  · rintro rfl
    have := (hk hA).symm.trans (hk hB)
    exact Option.some.inj this
  · intro h
    obtain ⟨h1, h2⟩ := List.getElem?_eq_some_iff.1 (hk hA)
    obtain ⟨h3, h4⟩ := List.getElem?_eq_some_iff.1 (hk hB)
    exact (List.Nodup.getElem_inj_iff sectorKeys_nodup).1 (h2.trans (h.trans h4.symm))

end Verif.WetTab
