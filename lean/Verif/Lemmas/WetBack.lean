import Verif.Model.WetApply
import Verif.Lemmas.WetCodes
import Verif.Lemmas.SymSubst

/-!
# Two translators called one after the other
-/

set_option autoImplicit false

namespace Verif.WetApply
open Verif.Py Verif.WetNames

/-! ## The inputs that occur in a formula -/

/-- all names of inputs have a property -/
def inpsAll (ok : ℕ → Bool) : Sym → Bool
  | .inp k => ok k
  | .rat _ _ | .par _ | .ckm _ _ | .pi => true
  | .sqrt a | .neg a | .conj a | .re a | .im a => inpsAll ok a
  | .add a b | .sub a b | .mul a b | .div a b => bif inpsAll ok a then inpsAll ok b else false

/-- all names of inputs are codes of strings -/
def validS (s : Sym) : Bool := inpsAll validN s

theorem eval_congr {ok : ℕ → Bool} {I J : Inputs} (hi : ∀ n, ok n = true → I.inp n = J.inp n) (hp : I.par = J.par)
    (hc : I.ckm = J.ckm) : ∀ s : Sym, inpsAll ok s = true → s.eval I = s.eval J := by
  intro s
  induction s with
  | inp k => exact fun h => hi k h
  | rat | pi => intro _; rfl
  | par k => intro _; simp only [Sym.eval, hp]
  | ckm i j => intro _; simp only [Sym.eval, hc]
  | sqrt a ih | neg a ih | conj a ih | re a ih | im a ih => intro h; simp only [Sym.eval, ih h]
  | add a b iha ihb | sub a b iha ihb | mul a b iha ihb | div a b iha ihb =>
    intro h
    obtain ⟨h1, h2⟩ := cond_and h
    simp only [Sym.eval, iha h1, ihb h2]

theorem inpsAll_and {p q : ℕ → Bool} : ∀ {s : Sym}, inpsAll p s = true → inpsAll q s = true →
    inpsAll (fun n => p n && q n) s = true := by
  intro s
  induction s with
  | inp k => intro h1 h2; show (p k && q k) = true; rw [Bool.and_eq_true]; exact ⟨h1, h2⟩
  | rat | pi | par | ckm => intro _ _; rfl
  | sqrt a ih | neg a ih | conj a ih | re a ih | im a ih => intro h1 h2; exact ih h1 h2
  | add a b iha ihb | sub a b iha ihb | mul a b iha ihb | div a b iha ihb =>
    intro h1 h2
    obtain ⟨h1, h1'⟩ := cond_and h1
    obtain ⟨h2, h2'⟩ := cond_and h2
    show cond _ _ _ = true
    rw [iha h1 h2, cond_true]
    exact ihb h1' h2'

/-- all names are codes of strings -/
def validL : List (ℕ × Sym) → Bool
  | [] => true
  | p :: l => bif validN p.1 then (bif validS p.2 then validL l else false) else false

theorem validL_mem : ∀ {l : List (ℕ × Sym)}, validL l = true → ∀ p ∈ l, validN p.1 = true ∧ validS p.2 = true
  | [], _, _, h => by cases h
  | q :: l, h, p, hm => by
    obtain ⟨h1, h2⟩ := cond_and h
    obtain ⟨h3, h4⟩ := cond_and h2
    rcases List.mem_cons.1 hm with rfl | hm
    · exact ⟨h1, h3⟩
    · exact validL_mem h4 p hm

/-- the dictionary with the values of formulas -/
noncomputable def values (I : Inputs) (l : List (ℕ × Sym)) : Dict String ℂ :=
  l.map fun p => (decode p.1, p.2.eval I)

theorem get_values (I : Inputs) {n : ℕ} (hn : validN n = true) : ∀ {l : List (ℕ × Sym)}, validL l = true →
    (values I l).get? (decode n) = (look n l).map (Sym.eval I)
  | [], _ => rfl
  | (k, s) :: l, h => by
    obtain ⟨h1, h2⟩ := cond_and h
    obtain ⟨-, h4⟩ := cond_and h2
    have ih := get_values I hn h4
    show Dict.get? ((decode k, s.eval I) :: values I l) (decode n) = _
    rw [Dict.get?_cons]
    by_cases hk : k = n
    · subst hk
      simp [look]
    · rw [if_neg (fun e => hk (decode_inj h1 hn e)), ih]
      have : Nat.beq k n = false := Bool.eq_false_iff.2 fun e => hk (Nat.eq_of_beq_eq_true e)
      simp [look, this]

theorem look_mem {α : Type} {n : ℕ} {v : α} : ∀ {l : List (ℕ × α)}, look n l = some v → (n, v) ∈ l
  | [], h => by cases h
  | (k, w) :: l, h => by
    unfold look at h
    cases hk : Nat.beq k n with
    | true =>
      rw [hk, cond_true] at h
      obtain rfl := Nat.eq_of_beq_eq_true hk
      cases h
      exact List.mem_cons_self ..
    | false =>
      rw [hk, cond_false] at h
      exact List.mem_cons_of_mem _ (look_mem h)

theorem inputsOf_values (P : Params) (C : Dict String ℂ) {F : List (ℕ × Sym)} (hF : validL F = true) {n : ℕ}
    (hn : validN n = true) :
    (inputsOf P (values (inputsOf P C) F)).inp n = (chain (inputsOf P C) F).inp n := by
  show ((values (inputsOf P C) F).get? (decode n)).getD 0 = ((look n F).map (Sym.eval (inputsOf P C))).getD 0
  rw [get_values _ hn hF]

/-! ## Parameters -/

theorem good_of_physical {P : Params} (hP : Physical P) (C : Dict String ℂ) : Good (inputsOf P C) where
  par := by
    have h : ∀ k ∈ parNames, decode k ∈
        ["GF", "alpha_e", "alpha_s", "m_b", "m_c", "m_s", "m_u", "m_d", "m_e", "m_mu", "m_tau"] := by
      decide +kernel
    exact fun k hk => hP.pos _ (h k hk)
  ckm := hP.ckm

/-! ## The names returned -/

/-- a name that is returned, and not among the exceptions -/
noncomputable def present (tg tb : DTree Sym) (n : ℕ) : Bool :=
  forceN (hash2 n) fun h =>
    match tg.get h n with
    | none => false
    | some _ => match tb.get h n with
      | none => true
      | some _ => false

theorem present_sound {g bad : List (ℕ × Sym)} {n : ℕ} (h : present (treeOf g) (treeOf bad) n = true) :
    (∃ s, look n g = some s) ∧ look n bad = none := by
  rw [present, forceN_eq, treeOf_get, treeOf_get] at h
  cases hg : look n g with
  | none => rw [hg] at h; cases h
  | some s =>
    rw [hg] at h
    cases hb : look n bad with
    | some t => rw [hb] at h; cases h
    | none => exact ⟨⟨s, rfl⟩, rfl⟩

/-- names that are not in a table -/
noncomputable def outside (t : DTree ℕ) (n : ℕ) : Bool :=
  forceN (hash2 n) fun h =>
    match t.get h n with
    | none => true
    | some _ => false

theorem outside_sound {t : List (ℕ × ℕ)} {n : ℕ} (h : outside (treeOf t) n = true) : look n t = none := by
  rw [outside, forceN_eq, treeOf_get] at h
  cases hl : look n t with
  | none => rfl
  | some s => rw [hl] at h; cases h

/-- all formulas have a property -/
def allSyms (ok : Sym → Bool) : List (ℕ × Sym) → Bool
  | [] => true
  | p :: l => bif ok p.2 then allSyms ok l else false

theorem allSyms_mem {ok : Sym → Bool} : ∀ {l : List (ℕ × Sym)}, allSyms ok l = true → ∀ p ∈ l, ok p.2 = true
  | [], _, _, h => by cases h
  | q :: l, h, p, hm => by
    obtain ⟨h1, h2⟩ := cond_and h
    rcases List.mem_cons.1 hm with rfl | hm
    · exact h1
    · exact allSyms_mem h2 p hm

/-- all names have a property -/
def allKeys (ok : ℕ → Bool) : List (ℕ × Sym) → Bool
  | [] => true
  | p :: l => bif ok p.1 then allKeys ok l else false

theorem allKeys_mem {ok : ℕ → Bool} : ∀ {l : List (ℕ × Sym)}, allKeys ok l = true → ∀ p ∈ l, ok p.1 = true
  | [], _, _, h => by cases h
  | q :: l, h, p, hm => by
    obtain ⟨h1, h2⟩ := cond_and h
    rcases List.mem_cons.1 hm with rfl | hm
    · exact h1
    · exact allKeys_mem h2 p hm

/-- The second translator reads the results of the first one, except that the dictionary may have been
changed at names that are not used. -/
theorem value_chain {P : Params} (hP : Physical P) (C D : Dict String ℂ) {F G bad : List (ℕ × Sym)}
    {ok : ℕ → Bool} (vF : validL F = true)
    (hD : ∀ n, validN n = true → ok n = true → D.get? (decode n) = (values (inputsOf P C) F).get? (decode n))
    (vG : validL G = true) (oG : allSyms (inpsAll ok) G = true)
    (hc : checkBack (treeOf F) (treeOf bad) G = true) {n : ℕ} (hn : validN n = true) {s : Sym}
    (hs : look n G = some s) :
    (values (inputsOf P D) G).get? (decode n) = some ((target' n (look n bad)).eval (inputsOf P C)) := by
  have hm := look_mem hs
  rw [get_values _ hn vG, hs, Option.map_some,
    ← checkBack_sound (good_of_physical hP C) hc n s hm]
  refine congrArg some (eval_congr (I := inputsOf P D) (J := chain (inputsOf P C) F)
    (ok := fun n => validN n && ok n) (fun m hm => ?_) rfl rfl s
    (inpsAll_and (validL_mem vG _ hm).2 (allSyms_mem oG _ hm)))
  rw [Bool.and_eq_true] at hm
  rw [← inputsOf_values P C vF hm.1]
  show (D.get? (decode m)).getD 0 = ((values (inputsOf P C) F).get? (decode m)).getD 0
  rw [hD m hm.1 hm.2]

theorem allSyms_true (l : List (ℕ × Sym)) : allSyms (inpsAll fun _ => true) l = true := by
  have h : ∀ s, inpsAll (fun _ => true) s = true := by
    intro s
    induction s with
    | inp | rat | pi | par | ckm => rfl
    | sqrt a ih | neg a ih | conj a ih | re a ih | im a ih => exact ih
    | add a b iha ihb | sub a b iha ihb | mul a b iha ihb | div a b iha ihb =>
      show cond _ _ _ = true
      rw [iha, ihb]; rfl
  induction l with
  | nil => rfl
  | cons p l ih => show cond _ _ _ = true; rw [h, ih]; rfl

/-! ## The last lines of the flavio translators -/

theorem forward_other (C : Dict String ℂ) {x : String} : ∀ (t : List (String × String)) (d : Dict String ℂ),
    (∀ p ∈ t, p.2 ≠ x) → (lfvForward C t d).get? x = d.get? x
  | [], _, _ => rfl
  | (j, f) :: t, d, h => by
    show (lfvForward C t _).get? x = _
    rw [forward_other C t _ fun p hp => h p (List.mem_cons_of_mem _ hp)]
    have hf : f ≠ x := h _ (List.mem_cons_self ..)
    show Dict.get? (match C.get? j with | some v => d.set f v | none => d) x = _
    cases C.get? j with
    | none => rfl
    | some v => exact Dict.get?_set_ne _ _ hf

theorem forward_mem (C : Dict String ℂ) {j f : String} : ∀ (t : List (String × String)) (d : Dict String ℂ),
    (t.map Prod.snd).Nodup → (j, f) ∈ t → (lfvForward C t d).get? f = (C.get? j).orElse fun _ => d.get? f
  | [], _, _, h => by cases h
  | (j', f') :: t, d, hn, hm => by
    show (lfvForward C t _).get? f = _
    have hn' := List.nodup_cons.1 hn
    rcases List.mem_cons.1 hm with e | hm
    · obtain ⟨rfl, rfl⟩ := Prod.mk.inj e
      rw [forward_other C t _ fun p hp e => hn'.1 (List.mem_map.2 ⟨p, hp, e⟩)]
      show Dict.get? (match C.get? j with | some v => d.set f v | none => d) f = _
      cases C.get? j with
      | none => rfl
      | some v => exact Dict.get?_set_self ..
    · rw [forward_mem C t _ hn'.2 hm]
      have hf : f' ≠ f := fun e => hn'.1 (List.mem_map.2 ⟨_, hm, e.symm⟩)
      show Option.orElse _ (fun _ => Dict.get? (match C.get? j' with | some v => d.set f' v | none => d) f) = _
      cases C.get? j' with
      | none => rfl
      | some v => rw [Dict.get?_set_ne _ _ hf]

theorem backward_other (C : Dict String ℂ) {x : String} : ∀ (t : List (String × String)) (d : Dict String ℂ),
    (∀ p ∈ t, p.1 ≠ x) → (lfvBackward C t d).get? x = d.get? x
  | [], _, _ => rfl
  | (j, f) :: t, d, h => by
    show (lfvBackward C t _).get? x = _
    rw [backward_other C t _ fun p hp => h p (List.mem_cons_of_mem _ hp)]
    exact Dict.get?_set_ne _ _ (h _ (List.mem_cons_self ..))

theorem backward_mem (C : Dict String ℂ) {j f : String} : ∀ (t : List (String × String)) (d : Dict String ℂ),
    (t.map Prod.fst).Nodup → (j, f) ∈ t → (lfvBackward C t d).get? j = some (C.getD f 0)
  | [], _, _, h => by cases h
  | (j', f') :: t, d, hn, hm => by
    show (lfvBackward C t _).get? j = _
    have hn' := List.nodup_cons.1 hn
    rcases List.mem_cons.1 hm with e | hm
    · obtain ⟨rfl, rfl⟩ := Prod.mk.inj e
      rw [backward_other C t _ fun p hp e => hn'.1 (List.mem_map.2 ⟨p, hp, e⟩)]
      exact Dict.get?_set_self ..
    · exact backward_mem C t _ hn'.2 hm

/-! ## Names of the JMS basis -/

/-- the code of the name of an array -/
def wkeyCode : Rotation.WKey → ℕ
  | .G => n!"G"
  | .Gtilde => n!"Gtilde"
  | .egamma => n!"egamma"
  | .uG => n!"uG"
  | .dG => n!"dG"
  | .ugamma => n!"ugamma"
  | .dgamma => n!"dgamma"
  | .S1udRR => n!"S1udRR"
  | .S1udduRR => n!"S1udduRR"
  | .S8udRR => n!"S8udRR"
  | .S8udduRR => n!"S8udduRR"
  | .SedRL => n!"SedRL"
  | .SedRR => n!"SedRR"
  | .SeuRL => n!"SeuRL"
  | .SeuRR => n!"SeuRR"
  | .SnueduRL => n!"SnueduRL"
  | .SnueduRR => n!"SnueduRR"
  | .TedRR => n!"TedRR"
  | .TeuRR => n!"TeuRR"
  | .TnueduRR => n!"TnueduRR"
  | .V1udduLR => n!"V1udduLR"
  | .V8udduLR => n!"V8udduLR"
  | .VnueduLL => n!"VnueduLL"
  | .VnueduLR => n!"VnueduLR"
  | .SuddLL => n!"SuddLL"
  | .SduuLL => n!"SduuLL"
  | .SduuLR => n!"SduuLR"
  | .SduuRL => n!"SduuRL"
  | .SdudRL => n!"SdudRL"
  | .SduuRR => n!"SduuRR"
  | .VuuRR => n!"VuuRR"
  | .VddRR => n!"VddRR"
  | .VuuLL => n!"VuuLL"
  | .VddLL => n!"VddLL"
  | .S1ddRR => n!"S1ddRR"
  | .S1uuRR => n!"S1uuRR"
  | .S8uuRR => n!"S8uuRR"
  | .SeeRR => n!"SeeRR"
  | .S8ddRR => n!"S8ddRR"
  | .VnueLL => n!"VnueLL"
  | .VnuuLL => n!"VnuuLL"
  | .VnudLL => n!"VnudLL"
  | .VeuLL => n!"VeuLL"
  | .VedLL => n!"VedLL"
  | .V1udLL => n!"V1udLL"
  | .V8udLL => n!"V8udLL"
  | .VeuRR => n!"VeuRR"
  | .VedRR => n!"VedRR"
  | .V1udRR => n!"V1udRR"
  | .V8udRR => n!"V8udRR"
  | .VnueLR => n!"VnueLR"
  | .VeeLR => n!"VeeLR"
  | .VnuuLR => n!"VnuuLR"
  | .VnudLR => n!"VnudLR"
  | .VeuLR => n!"VeuLR"
  | .VedLR => n!"VedLR"
  | .VueLR => n!"VueLR"
  | .VdeLR => n!"VdeLR"
  | .V1uuLR => n!"V1uuLR"
  | .V8uuLR => n!"V8uuLR"
  | .V1udLR => n!"V1udLR"
  | .V8udLR => n!"V8udLR"
  | .V1duLR => n!"V1duLR"
  | .V8duLR => n!"V8duLR"
  | .V1ddLR => n!"V1ddLR"
  | .V8ddLR => n!"V8ddLR"
  | .VeeLL => n!"VeeLL"
  | .VeeRR => n!"VeeRR"
  | .VnunuLL => n!"VnunuLL"
  | .SuudLR => n!"SuudLR"
  | .SuudRL => n!"SuudRL"
  | .SdduRL => n!"SdduRL"

theorem wkeyCode_eq (k : Rotation.WKey) : extend 1 (nats (Bridge.wkeyString k)) = wkeyCode k := by
  cases k <;> decide +kernel

theorem wkeyPlain (k : Rotation.WKey) : shortAscii 32 (nats (Bridge.wkeyString k)) = true := by
  cases k <;> decide +kernel

/-- the code of the name of a coefficient -/
noncomputable def coefCode (a : WetTab.Coef) : ℕ :=
  bif Nat.beq a.2 0 then wkeyCode a.1
  else extend (wkeyCode a.1) (95 :: (WetTab.ixOf a).map fun i => Nat.add 48 i)

theorem extend_eq_foldl (l : List Char) (n : ℕ) :
    l.foldl (fun a c => a * 256 + c.toNat) n = extend n (l.map Char.toNat) := by
  induction l generalizing n with
  | nil => rfl
  | cons c l ih => simp only [List.foldl_cons, List.map_cons, extend, forceN_eq]; exact ih _

theorem ixOf_lt {a : WetTab.Coef} (ha : a.2 < 10000) : ∀ i ∈ WetTab.ixOf a, i < 10 := by
  intro i hi
  unfold WetTab.ixOf at hi
  split_ifs at hi
  · cases hi
  · simp only [List.mem_cons, List.not_mem_nil, or_false] at hi
    omega
  · simp only [List.mem_cons, List.not_mem_nil, or_false] at hi
    omega

theorem code_nameOf {a : WetTab.Coef} (ha : a.2 < 10000) : code (WetTab.nameOf a) = coefCode a ∧ Plain (WetTab.nameOf a) := by
  have hd : (WetTab.ixOf a).map (fun i => (WetTab.digit i).toNat) = (WetTab.ixOf a).map fun i => Nat.add 48 i := by
    apply List.map_congr_left
    intro i hi
    have := ixOf_lt ha i hi
    exact toNat_ofNat (by omega)
  have hk := shortAscii_sound (wkeyPlain a.1)
  unfold WetTab.nameOf coefCode
  by_cases h0 : a.2 = 0
  · rw [if_pos h0, h0]
    refine ⟨?_, ⟨by have := hk.1; omega, hk.2⟩⟩
    rw [code_eq_extend, wkeyCode_eq]
    rfl
  · have hb : Nat.beq a.2 0 = false := Bool.eq_false_iff.2 fun e => h0 (Nat.eq_of_beq_eq_true e)
    rw [if_neg h0, hb, cond_false]
    constructor
    · unfold code encode
      rw [String.toList_ofList, List.foldl_append, extend_eq_foldl, extend_eq_foldl]
      unfold Bridge.wkeyName
      rw [show (Bridge.wkeyString a.1).toList.map Char.toNat = nats (Bridge.wkeyString a.1) from rfl, wkeyCode_eq,
        List.map_cons, List.map_map]
      show extend (wkeyCode a.1) (95 :: (WetTab.ixOf a).map (fun i => (WetTab.digit i).toNat)) = _
      rw [hd]
    · constructor
      · rw [String.toList_ofList, List.length_append]
        have h1 := hk.1
        have h2 : (WetTab.ixOf a).length ≤ 4 := by
          unfold WetTab.ixOf; split_ifs <;> simp
        simp only [Bridge.wkeyName, List.length_cons, List.length_map]
        omega
      · intro c hc
        rw [String.toList_ofList, List.mem_append, List.mem_cons, List.mem_map] at hc
        rcases hc with hc | rfl | ⟨i, hi, rfl⟩
        · exact hk.2 c hc
        · decide
        · have := ixOf_lt ha i hi
          rw [WetTab.digit, toNat_ofNat (by omega)]
          omega

/-- a property of codes holds for all coefficients in a list -/
noncomputable def checkCoefs (ok : ℕ → Bool) : List WetTab.Coef → Bool
  | [] => true
  | a :: l =>
    bif Nat.blt a.2 10000 then (bif forceN (coefCode a) ok then checkCoefs ok l else false) else false

theorem checkCoefs_mem {ok : ℕ → Bool} : ∀ {l : List WetTab.Coef}, checkCoefs ok l = true → ∀ a ∈ l,
    Plain (WetTab.nameOf a) ∧ ok (code (WetTab.nameOf a)) = true
  | [], _, _, h => by cases h
  | b :: l, h, a, hm => by
    obtain ⟨h1, h2⟩ := cond_and h
    obtain ⟨h3, h4⟩ := cond_and h2
    rcases List.mem_cons.1 hm with rfl | hm
    · have := code_nameOf (Nat.le_of_ble_eq_true h1)
      rw [forceN_eq, ← this.1] at h3
      exact ⟨this.2, h3⟩
    · exact checkCoefs_mem h4 a hm

/-- a property of codes holds for all coefficients of some sectors -/
noncomputable def checkSectors (ok : ℕ → Bool) (ss : List String) : List (String × List WetTab.Coef) → Bool
  | [] => true
  | (s, l) :: t =>
    bif ss.elem s then (bif checkCoefs ok l then checkSectors ok ss t else false) else checkSectors ok ss t

theorem checkSectors_mem {ok : ℕ → Bool} {ss : List String} : ∀ {t : List (String × List WetTab.Coef)},
    checkSectors ok ss t = true → ∀ s ∈ ss, ∀ l, (s, l) ∈ t → ∀ a ∈ l,
      Plain (WetTab.nameOf a) ∧ ok (code (WetTab.nameOf a)) = true
  | [], _, _, _, _, h => by cases h
  | (s', l') :: t, h, s, hs, l, hm => by
    unfold checkSectors at h
    rcases List.mem_cons.1 hm with e | hm
    · obtain ⟨rfl, rfl⟩ := Prod.mk.inj e
      rw [List.elem_eq_true_of_mem hs, cond_true] at h
      exact checkCoefs_mem (cond_and h).1
    · cases hb : ss.elem s' with
      | true => rw [hb, cond_true] at h; exact checkSectors_mem (cond_and h).2 s hs l hm
      | false => rw [hb, cond_false] at h; exact checkSectors_mem h s hs l hm

theorem checkSectors_sound {ok : ℕ → Bool} {ss : List String} (h : checkSectors ok ss WetTab.coefTable = true)
    {s x : String} (hs : s ∈ ss) (hx : IsCoef s x) : Plain x ∧ ok (code x) = true := by
  obtain ⟨l, hl, a, ha, rfl⟩ := hx
  exact checkSectors_mem h s hs l hl a ha

end Verif.WetApply
