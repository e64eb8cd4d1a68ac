import Verif.Lemmas.WetSem

/-!
# Soundness of the symmetry checks
-/

set_option autoImplicit false
set_option linter.unusedSimpArgs false

namespace Verif.WetTab
open Verif Verif.Rotation Verif.WetRun

/-! ## Packed lists -/

/-- a list of numbers as one number, `w` bits each -/
def pack (w : ℕ) : List ℕ → ℕ
  | [] => 0
  | c :: l => Nat.lor c (Nat.shiftLeft (pack w l) w)

theorem blk_pack {w : ℕ} {l : List ℕ} (h : ∀ c ∈ l, c < 2 ^ w) (q : ℕ) :
    blk w (pack w l) q = l.getD q 0 := by
  induction l generalizing q with
  | nil => simp [pack, blk_zero]
  | cons c l ih =>
    change blk w (c ||| (pack w l <<< w)) q = _
    rw [blk_or]
    have h0 : blk w c q = if 0 = q then c else 0 := by
      have := blk_shift w c 0 q (h c List.mem_cons_self)
      simpa using this
    have h1 : blk w (pack w l <<< w) q = if q = 0 then 0 else blk w (pack w l) (q - 1) := by
      apply Nat.eq_of_testBit_eq
      intro b
      rw [testBit_blk, Nat.testBit_shiftLeft]
      by_cases hq : q = 0
      · subst hq
        by_cases hb : b < w
        · simp [hb]
        · simp [hb]
      · rw [if_neg hq, testBit_blk]
        obtain ⟨q, rfl⟩ := Nat.exists_eq_succ_of_ne_zero hq
        have : w * (q + 1) + b - w = w * q + b := by
          rw [Nat.mul_succ]; omega
        simp only [Nat.succ_eq_add_one, Nat.add_sub_cancel, this]
        have : w ≤ w * (q + 1) + b := by rw [Nat.mul_succ]; omega
        simp [this]
    rw [h0, h1]
    cases q with
    | zero => simp
    | succ q =>
      rw [if_neg (by omega), if_neg (by omega), Nat.add_sub_cancel, ih fun c hc => h c (List.mem_cons_of_mem _ hc)]
      simp

/-- the number of the mass of a dipole coefficient -/
def massIdx (c : Coef) : ℕ :=
  match massOf c with
  | [q] => q.ctorIdx + 1
  | _ => 0

theorem qOf_massIdx (c : Coef) : qOf (massIdx c) = massOf c := by
  obtain ⟨k, m⟩ := c
  have key : massOf (k, m) = [] ∨ ∃ q, massOf (k, m) = [q] := by
    unfold massOf
    split <;> simp
  unfold massIdx
  rcases key with h | ⟨q, h⟩
  · rw [h]; rfl
  · rw [h]; cases q <;> rfl

/-- the packed data of a sector are those of its coefficients, the matrices are well formed and
either have the size of the sector or vanish -/
def dataOK (S : Sec) : Bool :=
  Nat.beq (pack 20 (S.coefs.map fun c => ccode c.1 c.2)) S.cn && Nat.beq (pack 4 (S.coefs.map massIdx)) S.ms &&
    (force S.coefs.length fun n => matWF' n S.rE && matWF' n S.rS &&
      (Nat.beq S.rE.length n || matWF' 0 S.rE) && (Nat.beq S.rS.length n || matWF' 0 S.rS))

theorem secs_dataOK : secs.all dataOK = true := by decide +kernel

/-- the matrix of a sector -/
def Sec.rows (S : Sec) : Force → Rows
  | .qcd => S.rS
  | .qed => S.rE

theorem matWF'_zero {R : Rows} (h : matWF' 0 R = true) (i j : ℕ) : entry R i j = none := by
  rw [entry, (matWF'_spec h).2.2 i (by omega)]
  rfl

theorem dataOK_spec {S : Sec} (h : S ∈ secs) :
    pack 20 (S.coefs.map fun c => ccode c.1 c.2) = S.cn ∧ pack 4 (S.coefs.map massIdx) = S.ms ∧
      ∀ F, matWF' S.coefs.length (S.rows F) = true ∧
        ((S.rows F).length = S.coefs.length ∨ matWF' 0 (S.rows F) = true) := by
  have := List.all_eq_true.1 secs_dataOK S h
  simp only [dataOK, force_eq, Bool.and_eq_true, Bool.or_eq_true] at this
  obtain ⟨⟨h1, h2⟩, ⟨⟨⟨h3, h4⟩, h5⟩, h6⟩⟩ := this
  refine ⟨Nat.eq_of_beq_eq_true h1, Nat.eq_of_beq_eq_true h2, fun F => ?_⟩
  cases F
  · exact ⟨h4, h6.imp Nat.eq_of_beq_eq_true id⟩
  · exact ⟨h3, h5.imp Nat.eq_of_beq_eq_true id⟩

/-! ## Position in the list of sectors -/

/-- the place of a listed coefficient in `secs` -/
structure At (a : Coef) (s : String) (i n : ℕ) (S : Sec) : Prop where
  table : ∃ l, coefTable[n]? = some (s, l)
  sec : secs[n]? = some S
  coef : S.coefs[i]? = some a
  cls : ∃ cls, Dict.get? sectorTable s = some cls ∧
    Dict.get? admETable cls = some S.rE ∧ Dict.get? admSTable cls = some S.rS

theorem Listed.at {a : Coef} {s : String} {i : ℕ} (h : Listed a s i) : ∃ n S, At a s i n S := by
  obtain ⟨l, hl, hi⟩ := h
  obtain ⟨n, hn⟩ := List.getElem?_of_mem hl
  have hlen := secs_matches.length_eq
  obtain ⟨hn', hn''⟩ := List.getElem?_eq_some_iff.1 hn
  have hS : n < secs.length := by omega
  have hM := (List.forall₂_iff_get.1 secs_matches).2 n hn' hS
  simp only [List.get_eq_getElem, hn''] at hM
  refine ⟨n, secs[n], ⟨l, hn⟩, List.getElem?_eq_getElem hS, ?_, hM.2⟩
  rw [hM.1]; exact hi

theorem At.listed {a : Coef} {s : String} {i n : ℕ} {S : Sec} (h : At a s i n S) : Listed a s i := by
  obtain ⟨l, hn⟩ := h.table
  obtain ⟨hn', hn''⟩ := List.getElem?_eq_some_iff.1 hn
  obtain ⟨hS, hS'⟩ := List.getElem?_eq_some_iff.1 h.sec
  have hM := (List.forall₂_iff_get.1 secs_matches).2 n hn' hS
  simp only [List.get_eq_getElem, hn'', hS'] at hM
  refine ⟨l, List.mem_of_getElem? hn, ?_⟩
  have := h.coef
  rwa [hM.1] at this

theorem At.mem {a : Coef} {s : String} {i n : ℕ} {S : Sec} (h : At a s i n S) : S ∈ secs :=
  List.mem_of_getElem? h.sec

/-- sectors are identified by name and by number -/
theorem At.sector_iff {a b : Coef} {s t : String} {i j n m : ℕ} {S T : Sec} (h : At a s i n S)
    (h' : At b t j m T) : s = t ↔ n = m := by
  obtain ⟨l, hn⟩ := h.table
  obtain ⟨l', hm⟩ := h'.table
  constructor
  · rintro rfl
    obtain ⟨hn1, hn2⟩ := List.getElem?_eq_some_iff.1 hn
    obtain ⟨hm1, hm2⟩ := List.getElem?_eq_some_iff.1 hm
    exact (List.Nodup.getElem_inj_iff sector_names_nodup (hi := by simpa using hn1)
      (hj := by simpa using hm1)).1 (by simp [hn2, hm2])
  · rintro rfl
    rw [hn] at hm
    exact (Prod.mk.inj (Option.some.inj hm)).1

theorem At.sec_eq {a b : Coef} {s t : String} {i j n : ℕ} {S T : Sec} (h : At a s i n S)
    (h' : At b t j n T) : S = T := by
  have := h.sec.symm.trans h'.sec
  exact Option.some.inj this

/-- a coefficient of the sector with number `n` -/
theorem At.of_sec {n i : ℕ} {S : Sec} {a : Coef} (hS : secs[n]? = some S) (ha : S.coefs[i]? = some a) :
    ∃ s, At a s i n S := by
  obtain ⟨hS1, hS2⟩ := List.getElem?_eq_some_iff.1 hS
  have hlen := secs_matches.length_eq
  have hn : n < coefTable.length := by omega
  have hM := (List.forall₂_iff_get.1 secs_matches).2 n hn hS1
  simp only [List.get_eq_getElem, hS2] at hM
  exact ⟨coefTable[n].1, ⟨_, List.getElem?_eq_getElem hn⟩, hS, ha, hM.2⟩

theorem At.lt {a : Coef} {s : String} {i n : ℕ} {S : Sec} (h : At a s i n S) : i < S.coefs.length :=
  (List.getElem?_eq_some_iff.1 h.coef).1

/-- the mass of a listed coefficient, from the packed data -/
theorem At.mass {a : Coef} {s : String} {i n : ℕ} {S : Sec} (h : At a s i n S) :
    qOf (massNo S.ms i) = massOf a := by
  have h1 := blk_pack (w := 4) (l := S.coefs.map massIdx) (by
    intro c hc
    obtain ⟨d, _, rfl⟩ := List.mem_map.1 hc
    unfold massIdx
    split
    · next q _ => have := Q.ctorIdx_lt q; norm_num; omega
    · norm_num) i
  rw [(dataOK_spec h.mem).2.1] at h1
  have h2 : massNo S.ms i = massIdx a := by
    change blk 4 S.ms i = _
    rw [h1, List.getD_eq_getElem?_getD, List.getElem?_map, h.coef]
    rfl
  rw [h2, qOf_massIdx]

theorem ctorIdx_lt (k : WKey) : k.ctorIdx < 72 := by cases k <;> decide

/-- the coefficient with a given code -/
theorem code_at {n q : ℕ} {S : Sec} (hS : secs[n]? = some S) {x : ℕ} (hx : x ≠ 0)
    (h : Nat.mod (Nat.shiftRight S.cn (Nat.mul 20 q)) 1048576 = x) :
    ∃ a, S.coefs[q]? = some a ∧ ccode a.1 a.2 = x := by
  have hm := List.mem_of_getElem? hS
  have h1 := blk_pack (w := 20) (l := S.coefs.map fun c => ccode c.1 c.2) (by
    intro c hc
    obtain ⟨d, hd, rfl⟩ := List.mem_map.1 hc
    obtain ⟨i, hi⟩ := List.getElem?_of_mem hd
    obtain ⟨s, hat⟩ := At.of_sec hS hi
    have hw := hat.listed.wellNamed
    have h2 := numOf_lt hw.1
    rw [hw.2] at h2
    have h3 : d.1.ctorIdx < 72 := ctorIdx_lt d.1
    change 10000 * d.1.ctorIdx + d.2 + 1 < 2 ^ 20
    norm_num
    omega) q
  rw [(dataOK_spec hm).1] at h1
  change blk 20 S.cn q = x at h
  rw [h, List.getD_eq_getElem?_getD, List.getElem?_map] at h1
  cases hq : S.coefs[q]? with
  | none => rw [hq] at h1; exact absurd h1 hx
  | some a => rw [hq] at h1; exact ⟨a, rfl, h1.symm⟩

/-! ## Mixing in terms of the tables -/

theorem sectorTable_nodup : Dict.NodupKeys sectorTable := by
  unfold sectorTable
  exact Dict.nodupKeys_update _ _ (by simp [Dict.NodupKeys, Dict.keys])

theorem cell_value {R : Rows} {n : ℕ} (h : matWF' n R = true)
    (h' : R.length = n ∨ matWF' 0 R = true) (f : ℕ) (m : Masses) (i j : ℕ) :
    cell ⟨R.length, fun i j => value R f m i j⟩ i j = value R f m i j := by
  unfold cell
  split
  · rfl
  · next hij =>
    have : entry R i j = none := by
      rcases h' with h' | h'
      · cases he : entry R i j with
        | none => rfl
        | some e =>
          have h1 := (entry_small h he).2
          have h2 : i < R.length := by
            by_contra hn
            rw [entry, List.getD_eq_getElem?_getD, List.getElem?_eq_none (by omega)] at he
            cases he
          exact absurd ⟨h2, by rw [h']; exact h1⟩ hij
      · exact matWF'_zero h' i j
    rw [value, this]

theorem adm_eq {a : Coef} {s : String} {i n : ℕ} {S : Sec} (h : At a s i n S) {cls : String}
    (hc : (s, cls) ∈ sectorTable) (F : Force) (f : ℕ) (m : Masses) :
    adm F cls f m = .ok ⟨(S.rows F).length, fun i j => value (S.rows F) f m i j⟩ := by
  obtain ⟨cls', h1, h2, h3⟩ := h.cls
  have := Dict.get?_of_mem sectorTable_nodup hc
  rw [h1] at this
  obtain rfl := Option.some.inj this
  cases F
  · simp only [adm, admOf, h3, Sec.rows]
  · simp only [adm, admOf, h2, Sec.rows]

/-- the normalisation factor of a coefficient -/
noncomputable def scale (a : Coef) (p : Par) : ℝ := gfac a.1 p / mprod p.masses (massOf a)

theorem mixing_same_iff {F : Force} {f : ℕ} {p : Par} {a b : Coef} {s t : String} {i j n : ℕ}
    {S T : Sec} (ha : At a s i n S) (hb : At b t j n T) {z : ℂ} :
    Mixing F f p a b z ↔ z = value (S.rows F) f p.masses i j * (scale a p / scale b p : ℝ) := by
  obtain rfl := (ha.sector_iff hb).2 rfl
  have hd := (dataOK_spec ha.mem).2.2 F
  constructor
  · rintro (⟨ha', hb', hc, hA, hx, hy⟩ | ⟨ha', hb', hne⟩)
    · obtain ⟨rfl, rfl, -⟩ := listed_unique ha.listed ha' rfl
      obtain ⟨-, rfl, -⟩ := listed_unique hb.listed hb' rfl
      rw [adm_eq ha hc F] at hA
      obtain rfl := Except.ok.inj hA
      rw [scaleC_eq ha'.wellNamed] at hx
      rw [scaleC_eq hb'.wellNamed] at hy
      obtain rfl := Except.ok.inj hx
      obtain rfl := Except.ok.inj hy
      rw [cell_value hd.1 hd.2]
      simp [scale]
    · obtain ⟨rfl, -⟩ := listed_unique ha.listed ha' rfl
      obtain ⟨rfl, -⟩ := listed_unique hb.listed hb' rfl
      exact absurd rfl hne
  · rintro rfl
    obtain ⟨cls, h1, -⟩ := ha.cls
    have hc := Dict.mem_of_get? h1
    have := Mixing.same (F := F) (f := f) (p := p) ha.listed hb.listed hc (adm_eq ha hc F f _)
      (scaleC_eq ha.listed.wellNamed p) (scaleC_eq hb.listed.wellNamed p)
    rw [cell_value hd.1 hd.2] at this
    simpa [scale] using this

theorem mixing_other_iff {F : Force} {f : ℕ} {p : Par} {a b : Coef} {s t : String} {i j n m : ℕ}
    {S T : Sec} (ha : At a s i n S) (hb : At b t j m T) (hne : n ≠ m) {z : ℂ} :
    Mixing F f p a b z ↔ z = 0 := by
  have hst : s ≠ t := fun e => hne ((ha.sector_iff hb).1 e)
  constructor
  · rintro (⟨ha', hb', hc, hA, hx, hy⟩ | ⟨ha', hb', hne⟩)
    · obtain ⟨rfl, -⟩ := listed_unique ha.listed ha' rfl
      obtain ⟨rfl, -⟩ := listed_unique hb.listed hb' rfl
      exact absurd rfl hst
    · rfl
  · rintro rfl
    exact .other ha.listed hb.listed hst

/-! ## The symmetry checks -/

theorem symOK_spec {σ : Q → Q} {imgs : Coef → List ℕ → List (WKey × List ℕ × Bool × Bool)}
    {img : List (ℕ × ℕ)} {L : List Sec} {k : ℕ} (h : symOK σ imgs img k L = true) {n : ℕ} {S : Sec}
    (hS : L[n]? = some S) : secOK σ imgs img (k + n) S = true := by
  induction L generalizing k n with
  | nil => simp at hS
  | cons T L ih =>
    simp only [symOK, Bool.and_eq_true] at h
    cases n with
    | zero =>
      obtain rfl : T = S := by simpa using hS
      exact h.1
    | succ n =>
      have := ih h.2 (n := n) (by simpa using hS)
      rwa [show k + 1 + n = k + (n + 1) from by omega] at this

theorem namesOK_spec {imgs : Coef → List ℕ → List (WKey × List ℕ × Bool × Bool)} {cn cert k : ℕ}
    {L : List Coef} (h : namesOK imgs cn cert k L = true) {i : ℕ} {a : Coef} (ha : L[i]? = some a) :
    ∃ y ∈ imgs a (ixOf a),
      Nat.mod (Nat.shiftRight cn (Nat.mul 20 (tpos cert (k + i)))) 1048576 = ccode y.1 (numOf y.2.1) ∧
      tconj cert (k + i) = y.2.2.1 ∧ tneg cert (k + i) = y.2.2.2 := by
  induction L generalizing k i with
  | nil => simp at ha
  | cons b L ih =>
    simp only [namesOK, force_eq, forceIx_eq, Bool.and_eq_true] at h
    cases i with
    | zero =>
      obtain rfl : b = a := by simpa using ha
      obtain ⟨y, hy, hy'⟩ := List.any_eq_true.1 h.1
      simp only [Bool.and_eq_true] at hy'
      have beq : ∀ x y : Bool, beqB x y = true → x = y := by decide
      exact ⟨y, hy, Nat.eq_of_beq_eq_true hy'.1.1, beq _ _ hy'.1.2, beq _ _ hy'.2⟩
    | succ i =>
      have := ih h.2 (i := i) (by simpa using ha)
      rwa [show k + 1 + i = k + (i + 1) from by omega] at this

/-- the image of a coefficient found by the check -/
structure Image (imgs : Coef → List ℕ → List (WKey × List ℕ × Bool × Bool)) (a : Coef) (n' : ℕ)
    (S' : Sec) (i' : ℕ) (a' : Coef) (c ng : Bool) : Prop where
  sec : secs[n']? = some S'
  coef : S'.coefs[i']? = some a'
  img : ∃ y ∈ imgs a (ixOf a), ccode a'.1 a'.2 = ccode y.1 (numOf y.2.1) ∧ y.2.2 = (c, ng)

/-- what the check of a sector shows -/
theorem secOK_spec {σ : Q → Q} {imgs : Coef → List ℕ → List (WKey × List ℕ × Bool × Bool)}
    {img : List (ℕ × ℕ)} (h : symOK σ imgs img 0 secs = true) {n : ℕ} {S : Sec}
    (hS : secs[n]? = some S) :
    (∀ a ∈ S.coefs, imgs a (ixOf a) = []) ∨
      ∃ n' S' cert, secs[n']? = some S' ∧ (∃ cert', img.getD n' (0, 0) = (n + 1, cert')) ∧
        img.getD n (0, 0) = (n' + 1, cert) ∧
        (∀ i a, S.coefs[i]? = some a → ∃ a', Image imgs a n' S' (tpos cert i) a' (tconj cert i)
          (tneg cert i)) ∧
        (∀ i < S.coefs.length, ∀ j < S.coefs.length, tpos cert i = tpos cert j → i = j) ∧
        ∀ F, matOK σ S S' cert (S'.rows F) S.coefs.length (S.rows F) 0 = true := by
  have h0 := symOK_spec h hS
  rw [Nat.zero_add, secOK] at h0
  rcases hi : img.getD n (0, 0) with ⟨m, cert⟩
  rw [hi] at h0
  rcases m with _ | n'
  · left
    intro a ha
    have := List.all_eq_true.1 h0 a ha
    cases he : imgs a (ixOf a) with
    | nil => rfl
    | cons => rw [he] at this; cases this
  · right
    simp only at h0
    cases hS' : secs[n']? with
    | none => rw [hS'] at h0; cases h0
    | some S' =>
      rcases hi' : img.getD n' (0, 0) with ⟨m', cert'⟩
      rw [hS', hi'] at h0
      rcases m' with _ | n''
      · cases h0
      · simp only [Bool.and_eq_true, force_eq] at h0
        obtain ⟨⟨⟨⟨⟨h1, h2⟩, h3⟩, h4⟩, h5⟩, h6⟩ := h0
        obtain rfl := Nat.eq_of_beq_eq_true h1
        refine ⟨n', S', cert, hS', ⟨cert', hi'⟩, rfl, ?_, ?_, ?_⟩
        · intro i a ha
          obtain ⟨y, hy, e1, e2, e3⟩ := namesOK_spec h2 ha
          rw [Nat.zero_add] at e1 e2 e3
          obtain ⟨a', ha', e⟩ := code_at hS' (Nat.succ_ne_zero _) e1
          exact ⟨a', hS', ha', y, hy, e, by rw [e2, e3]⟩
        · intro i hi j hj e
          have hb := fun i hi => Nat.eq_of_beq_eq_true (List.all_eq_true.1 h3 i (List.mem_range.2 hi))
          rw [← hb i hi, ← hb j hj, e]
        · intro F
          cases F
          · exact h6
          · exact h5

/-- **Soundness of the symmetry check.** -/
theorem symOK_sound {σ : Q → Q} {imgs : Coef → List ℕ → List (WKey × List ℕ × Bool × Bool)}
    {img : List (ℕ × ℕ)} (h : symOK σ imgs img 0 secs = true)
    (hg : ∀ a y, y ∈ imgs a (ixOf a) → WellNamed a → Valid y.1 y.2.1 ∧ ∀ p, gfac y.1 p = gfac a.1 p)
    {a b : Coef} {s t : String} {i j : ℕ} (ha : Listed a s i) (hb : Listed b t j)
    (hna : imgs a (ixOf a) ≠ []) (hnb : imgs b (ixOf b) ≠ []) :
    ∃ ya ∈ imgs a (ixOf a), ∃ yb ∈ imgs b (ixOf b), ∃ s' t' i' j',
      Listed (ya.1, numOf ya.2.1) s' i' ∧ Listed (yb.1, numOf yb.2.1) t' j' ∧
      (∀ n S, At a s i n S → ya.2.2.1 = tconj (img.getD n (0, 0)).2 i) ∧
      (∀ n S, At b t j n S → yb.2.2.1 = tconj (img.getD n (0, 0)).2 j) ∧
      ∀ (F : Force) (f : ℕ) (p p' : Par) (z : ℂ), Massive p.masses → Massive p'.masses →
        p'.alpha_s = p.alpha_s → p'.alpha_e = p.alpha_e →
        (∀ q, (σ q).val p'.masses = q.val p.masses) → Mixing F f p a b z →
        Mixing F f p' (ya.1, numOf ya.2.1) (yb.1, numOf yb.2.1)
          (sgn (xor ya.2.2.2 yb.2.2.2) * conjIf yb.2.2.1 z) := by
  obtain ⟨n, S, hAa⟩ := ha.at
  obtain ⟨m, T, hAb⟩ := hb.at
  rcases secOK_spec h hAa.sec with h0 | ⟨n', S', cert, hS', ⟨cn', hcn'⟩, hin, himg, hinj, hexp⟩
  · exact absurd (h0 a (List.mem_of_getElem? hAa.coef)) hna
  rcases secOK_spec h hAb.sec with h0 | ⟨m', T', dert, hT', ⟨cm', hcm'⟩, him, himg', hinj', hexp'⟩
  · exact absurd (h0 b (List.mem_of_getElem? hAb.coef)) hnb
  obtain ⟨a', -, ha', ya, hya, ea, fa⟩ := himg i a hAa.coef
  obtain ⟨b', -, hb', yb, hyb, eb, fb⟩ := himg' j b hAb.coef
  obtain ⟨s', hAa'⟩ := At.of_sec hS' ha'
  obtain ⟨t', hAb'⟩ := At.of_sec hT' hb'
  have hva := hg a ya hya ha.wellNamed
  have hvb := hg b yb hyb hb.wellNamed
  have wa := hAa'.listed.wellNamed
  have wb := hAb'.listed.wellNamed
  have ea' : a' = (ya.1, numOf ya.2.1) := by
    obtain ⟨e1, e2⟩ := ccode_inj ea (by rw [← wa.2]; exact numOf_lt wa.1) (numOf_lt hva.1)
    exact Prod.ext e1 e2
  have eb' : b' = (yb.1, numOf yb.2.1) := by
    obtain ⟨e1, e2⟩ := ccode_inj eb (by rw [← wb.2]; exact numOf_lt wb.1) (numOf_lt hvb.1)
    exact Prod.ext e1 e2
  refine ⟨ya, hya, yb, hyb, s', t', _, _, ea' ▸ hAa'.listed, eb' ▸ hAb'.listed, ?_, ?_, ?_⟩
  · intro n1 S1 h1
    obtain rfl := (h1.sector_iff hAa).1 rfl
    rw [hin]
    exact (Prod.mk.inj fa).1
  · intro n1 S1 h1
    obtain rfl := (h1.sector_iff hAb).1 rfl
    rw [him]
    exact (Prod.mk.inj fb).1
  intro F f p p' z hm hm' hps hpe hσ hz
  rw [← ea', ← eb']
  by_cases hnm : n = m
  · subst hnm
    obtain rfl := hAa.sec_eq hAb
    rw [hin] at him
    obtain ⟨e1, rfl⟩ := Prod.mk.inj him
    obtain rfl : n' = m' := by omega
    obtain rfl := hAa'.sec_eq hAb'
    rw [mixing_same_iff hAa hAb] at hz
    subst hz
    rw [mixing_same_iff hAa' hAb']
    have hW := (dataOK_spec hAa.mem).2.2 F
    have hW' := (dataOK_spec hAa'.mem).2.2 F
    have hrange : ∀ i < S.coefs.length, tpos cert i < S'.coefs.length := by
      intro i hi
      obtain ⟨a'', _, h2, _⟩ := himg i _ (List.getElem?_eq_getElem hi)
      exact (List.getElem?_eq_some_iff.1 h2).1
    have hsc : ∀ (x y : Coef) (q : Par), Massive q.masses → scale x q / scale y q =
        gfac x.1 q / gfac y.1 q * (mprod q.masses (massOf y) / mprod q.masses (massOf x)) := by
      intro x y q hq
      have h1 := mprod_ne hq (massOf x)
      have h2 := mprod_ne hq (massOf y)
      unfold scale
      rw [div_div_div_eq, mul_comm (gfac x.1 q), div_mul_div_comm, mul_comm (gfac y.1 q), mul_comm (gfac x.1 q)]
    have hgf : ∀ k, gfac k p' = gfac k p := by
      intro k
      unfold gfac
      rw [hps, hpe]
    have ga : gfac a'.1 p' = gfac a.1 p := by rw [hgf, ea']; exact hva.2 p
    have gb : gfac b'.1 p' = gfac b.1 p := by rw [hgf, eb']; exact hvb.2 p
    rw [hsc a' b' p' hm', hsc a b p hm, ga, gb, ← hAa.mass, ← hAb.mass, ← hAa'.mass, ← hAb'.mass]
    obtain ⟨c1, g1⟩ := Prod.mk.inj fa
    obtain ⟨c2, g2⟩ := Prod.mk.inj fb
    rcases entries_correspond hW.1 hW'.1 hinj hrange (hexp F) hAa.lt hAb.lt with
      ⟨h1, h2⟩ | ⟨e, e', h1, h2, h3⟩
    · rw [value, value, h1, h2]
      simp [conjIf]
    · have ht := transform_sound h3 f hm hm' hσ
      rw [value, value, h1, h2]
      simp only
      rw [mul_comm (gfac a.1 p / gfac b.1 p), mul_comm (gfac a.1 p / gfac b.1 p), Complex.ofReal_mul,
        Complex.ofReal_mul, ← mul_assoc, ← mul_assoc, ht, conjIf_mul_real, conjIf_mul_real, g1, g2, c2]
      ring
  · have hnm' : n' ≠ m' := by
      rintro rfl
      rw [hcn'] at hcm'
      have := (Prod.mk.inj hcm').1
      omega
    rw [mixing_other_iff hAa hAb hnm] at hz
    subst hz
    rw [mixing_other_iff hAa' hAb' hnm']
    simp [conjIf]

end Verif.WetTab
