import Verif.Lemmas.WetCovered
import Verif.Spec.WetRestores

/-!
# Round trips for the families of names
-/

set_option autoImplicit false
set_option maxRecDepth 100000

namespace Verif.WetApply
open Verif.Py Verif.Gen.WetOut Verif.WetNames

theorem restores_of {f g : String} {G bad : List (ℕ × Sym)} {X : String → Prop}
    (h : ∀ {P : Params}, Physical P → ∀ C : Dict String ℂ, ∃ D E, run f P C = .ok D ∧ run g P D = .ok E ∧
      ∀ n s, look n G = some s → E.get? (decode n) = some ((target' n (look n bad)).eval (inputsOf P C)))
    (hX : ∀ x, X x → Plain x ∧ present (treeOf G) (treeOf bad) (code x) = true) : Restores f g X := by
  intro P hP C
  obtain ⟨D, E, h1, h2, h3⟩ := h hP C
  refine ⟨D, E, h1, h2, fun x hx => ?_⟩
  obtain ⟨hp, hc⟩ := hX x hx
  obtain ⟨⟨s, hs⟩, hb⟩ := present_sound hc
  have := h3 _ s hs
  rw [hb, decode_code hp] at this
  rw [this]
  show some (C.getD (decode (code x)) 0) = _
  rw [decode_code hp]

theorem restores_JBJ {ss : List String} (hss : ∀ s ∈ ss, s ∈ sectorsBern) :
    Restores "JMS_to_Bern" "Bern_to_JMS" fun x => ∃ s ∈ ss, IsCoef s x := by
  refine restores_of back_JBJ fun x hx => ?_
  obtain ⟨s, hs, hx⟩ := hx
  have h := cov_Bern_to_JMS
  rw [forceT_eq] at h
  exact checkSectors_sound h (hss s hs) hx

theorem restores_JFJ {ss : List String} (hss : ∀ s ∈ ss, s ∈ sectorsFlavio) :
    Restores "JMS_to_flavio" "flavio_to_JMS" fun x => ∃ s ∈ ss, IsCoef s x := by
  refine restores_of back_JFJ fun x hx => ?_
  obtain ⟨s, hs, hx⟩ := hx
  have h := cov_flavio_to_JMS
  rw [forceT_eq, forceT_eq] at h
  exact checkSectors_sound h (hss s hs) hx

theorem restores_BJB {l : List (List String × List String)}
    (hl : ∀ p ∈ l, p ∈ [(["1", "1p", "2", "2p", "3", "3p", "4", "5"], ["sbsb", "dbdb", "dsds", "cucu"]),
     (["1", "1p", "5", "5p", "7p"], cat ["ub", "cb", "us", "cs", "ud", "cd"] lepPairs),
     (bernTwenty, cat ["sb", "db", "ds"] ["uc", "cu"]), (bernTen, ["sbsd", "dbds"]),
     (bernTwenty, cat ["sb", "db", "ds"] ["uu", "cc"] ++ ["sbdd", "dbss", "dsbb"]),
     (bernTen, ["sbss", "sbbb", "dbdd", "dbbb", "dsdd", "dsss"]),
     (bernTen, cat ["sb", "db", "ds"] lepPairs),
     (["nu1", "nu1p"], cat ["sb", "db", "ds"] lepPairs),
     (["7gamma", "7pgamma", "8g", "8pg"], ["sb", "db", "ds"])]) :
    Restores "Bern_to_JMS" "JMS_to_Bern" fun x => ∃ p ∈ l, x ∈ cat p.1 p.2 := by
  refine restores_of back_BJB fun x hx => ?_
  obtain ⟨p, hp, hx⟩ := hx
  have h := cov_JMS_to_Bern
  rw [forceT_eq] at h
  exact checkCats_sound h p (hl p hp) x hx

theorem restores_BFB {l : List (List String × List String)}
    (hl : ∀ p ∈ l, p ∈ [(["1", "1p", "2", "2p", "3", "3p", "4", "5"], ["sbsb", "dbdb", "dsds", "cucu"]),
     (["1", "1p", "5", "5p", "7p"], cat ["ub", "cb", "us", "cs", "ud", "cd"] lepPairs),
     (bernTwenty, cat ["sb", "db", "ds"] ["uu", "cc"] ++ ["sbdd", "dbss", "dsbb"]),
     (bernTen, ["sbss", "sbbb", "dbdd", "dbbb", "dsdd", "dsss"]),
     (bernEight, cat ["sb", "db"] lepPairs ++ ["dsee", "dsmumu", "dstautau"]),
     (["nu1", "nu1p"], cat ["sb", "db", "ds"] lepPairs),
     (["7gamma", "7pgamma", "8g", "8pg"], ["sb", "db", "ds"])]) :
    Restores "Bern_to_flavio" "flavio_to_Bern" fun x => ∃ p ∈ l, x ∈ cat p.1 p.2 := by
  refine restores_of back_BFB fun x hx => ?_
  obtain ⟨p, hp, hx⟩ := hx
  have h := cov_flavio_to_Bern
  rw [forceT_eq, forceT_eq] at h
  exact checkCats_sound h p (hl p hp) x hx

theorem restores_FJF {l : List (List String × List String)}
    (hl : ∀ p ∈ l, p ∈ [(["CVLL_", "CVRR_", "CVLR_", "CSLL_", "CSRR_", "CSLR_", "CTLL_", "CTRR_"],
      ["bsbs", "bdbd", "sdsd", "ucuc"]),
     (["CVL_", "CVR_", "CSL_", "CSR_", "CT_"],
      cat (cat ["bc", "bu", "sc", "su", "dc", "du"] leps) (cat ["nu"] leps)),
     (flavioTwenty, cat ["bs", "bd", "sd"] ["uu", "cc"] ++ ["bsdd", "bdss", "sdbb"]),
     (flavioTen, ["bsss", "bsbb", "bddd", "bdbb", "sddd", "sdss"]),
     (flavioTwenty, ["cudd", "cuss", "cubb"]), (flavioTen, ["cuuu", "cucc"]),
     (["C9_", "C9p_", "C10_", "C10p_", "CS_", "CSp_", "CP_", "CPp_"], cat ["bs", "bd", "sd"] lepPairs),
     (["C9_", "C9p_", "C10_", "C10p_", "CS_", "CSp_", "CP_", "CPp_"], ["cuee", "cumumu", "cutautau"]),
     (["CL_", "CR_"], cat ["bs", "bd", "sd"] nuPairs),
     (["C7_", "C7p_", "C8_", "C8p_"], ["bs", "bd", "sd"]), (["C7_", "C7p_", "C8_", "C8p_"], ["cu"])]) :
    Restores "flavio_to_JMS" "JMS_to_flavio" fun x => ∃ p ∈ l, x ∈ cat p.1 p.2 := by
  refine restores_of back_FJF fun x hx => ?_
  obtain ⟨p, hp, hx⟩ := hx
  have h := cov_JMS_to_flavio
  rw [forceT_eq] at h
  exact checkCats_sound h p (hl p hp) x hx

theorem restores_FBF {l : List (List String × List String)}
    (hl : ∀ p ∈ l, p ∈ [(["CVLL_", "CVRR_", "CVLR_", "CSLL_", "CSRR_", "CSLR_", "CTLL_", "CTRR_"],
      ["bsbs", "bdbd", "sdsd", "ucuc"]),
     (["CVL_", "CVR_", "CSL_", "CSR_", "CT_"],
      cat (cat ["bc", "bu", "sc", "su", "dc", "du"] leps) (cat ["nu"] leps)),
     (flavioTwenty, cat ["bs", "bd", "sd"] ["uu", "cc"] ++ ["bsdd", "bdss", "sdbb"]),
     (flavioTen, ["bsss", "bsbb", "bddd", "bdbb", "sddd", "sdss"]),
     (["C9_", "C9p_", "C10_", "C10p_", "CS_", "CSp_", "CP_", "CPp_"],
      cat ["bs", "bd"] lepPairs ++ ["sdee", "sdmumu", "sdtautau"]),
     (["CL_", "CR_"], cat ["bs", "bd", "sd"] nuPairs),
     (["C7_", "C7p_", "C8_", "C8p_"], ["bs", "bd", "sd"])]) :
    Restores "flavio_to_Bern" "Bern_to_flavio" fun x => ∃ p ∈ l, x ∈ cat p.1 p.2 := by
  refine restores_of back_FBF fun x hx => ?_
  obtain ⟨p, hp, hx⟩ := hx
  have h := cov_Bern_to_flavio
  rw [forceT_eq, forceT_eq] at h
  exact checkCats_sound h p (hl p hp) x hx

theorem Restores.mono {f g : String} {X Y : String → Prop} (h : Restores f g X) (hXY : ∀ x, Y x → X x) :
    Restores f g Y := by
  intro P hP C
  obtain ⟨D, E, h1, h2, h3⟩ := h P hP C
  exact ⟨D, E, h1, h2, fun x hx => h3 x (hXY x hx)⟩

theorem Restores.or_same {f g : String} {X Y : String → Prop} (h : Restores f g X) (h' : Restores f g Y) :
    Restores f g fun x => X x ∨ Y x := by
  intro P hP C
  obtain ⟨D, E, h1, h2, h3⟩ := h P hP C
  obtain ⟨D', E', h1', h2', h3'⟩ := h' P hP C
  rw [h1] at h1'
  cases h1'
  rw [h2] at h2'
  cases h2'
  exact ⟨D, E, h1, h2, fun x hx => hx.elim (h3 x) (h3' x)⟩

theorem restores_JFJ' : Restores "JMS_to_flavio" "flavio_to_JMS" fun x =>
    ∃ s ∈ sectorsFlavio', ∃ l, (s, l) ∈ WetTab.coefTable ∧ ∃ a ∈ l,
      a.1 ≠ .TedRR ∧ a.1 ≠ .TeuRR ∧ x = WetTab.nameOf a := by
  refine restores_of back_JFJ fun x hx => ?_
  obtain ⟨s, hs, l, hl, a, ha, h1, h2, rfl⟩ := hx
  have h := cov_flavio_to_JMS'
  rw [forceT_eq, forceT_eq] at h
  refine checkSectors_mem h s hs _ (List.mem_map.2 ⟨_, hl, rfl⟩) a (List.mem_filter.2 ⟨ha, ?_⟩)
  have : isTensor a = false := by
    unfold isTensor
    split
    · next h => exact absurd h h1
    · next h => exact absurd h h2
    · rfl
  rw [this]
  rfl

theorem lost_JFJ {P : Params} (hP : Physical P) (C : Dict String ℂ) :
    ∃ D E, run "JMS_to_flavio" P C = .ok D ∧ run "flavio_to_JMS" P D = .ok E ∧
      ∀ s ∈ sectorsFlavio', ∀ l, (s, l) ∈ WetTab.coefTable → ∀ a ∈ l,
        a.1 = .TedRR ∨ a.1 = .TeuRR → E.get? (WetTab.nameOf a) = some 0 := by
  obtain ⟨D, E, h1, h2, h3⟩ := back_JFJ hP C
  refine ⟨D, E, h1, h2, fun s hs l hl a ha ht => ?_⟩
  have h := lost_flavio_to_JMS
  rw [forceT_eq, forceT_eq] at h
  have ht' : isTensor a = true := by
    rcases ht with h | h <;> (unfold isTensor; rw [h])
  obtain ⟨hp, hc⟩ := checkSectors_mem h s hs _ (List.mem_map.2 ⟨_, hl, rfl⟩) a (List.mem_filter.2 ⟨ha, ht'⟩)
  obtain ⟨⟨t, ht⟩, hb⟩ := lost_sound hc
  have := h3 _ t ht
  rw [hb, decode_code hp] at this
  rw [this]
  show some (((0 : ℤ) : ℂ) / ((1 : ℕ) : ℂ)) = _
  norm_num

/-! ## The tables of lepton flavour violating coefficients -/

theorem tail_nodup_fst : (tailJ.map Prod.fst).Nodup := by
  have : (tailJ.map Prod.fst).Pairwise (fun a b => a ≠ b) := by decide +kernel
  exact this

theorem tail_nodup_snd : (tailJ.map Prod.snd).Nodup := by
  have : (tailJ.map Prod.snd).Pairwise (fun a b => a ≠ b) := by decide +kernel
  exact this

theorem map_decode_nodup {l : List ℕ} (hl : l.Nodup) (hv : ∀ n ∈ l, validN n = true) : (l.map decode).Nodup :=
  List.Nodup.map_on (fun a ha b hb e => decode_inj (hv a ha) (hv b hb) e) hl

theorem tail_valid_mem {p : ℕ × ℕ} (hp : p ∈ tailJ) : validN p.1 = true ∧ validN p.2 = true := by
  have hv := List.all_eq_true.1 tail_valid p hp
  rwa [Bool.and_eq_true] at hv

theorem dlep_nodup_fst : (dlep.map Prod.fst).Nodup := by
  rw [dlep_eq, List.map_map]
  have := map_decode_nodup tail_nodup_fst fun n hn => by
    obtain ⟨p, hp, rfl⟩ := List.mem_map.1 hn
    exact (tail_valid_mem hp).1
  rwa [List.map_map] at this

theorem dlep_nodup_snd : (dlep.map Prod.snd).Nodup := by
  rw [dlep_eq, List.map_map]
  have := map_decode_nodup tail_nodup_snd fun n hn => by
    obtain ⟨p, hp, rfl⟩ := List.mem_map.1 hn
    exact (tail_valid_mem hp).2
  rwa [List.map_map] at this

theorem look_isNone_of_outside {t : List (ℕ × ℕ)} {l : List (ℕ × Sym)}
    (h : allKeys (outside (treeOf t)) l = true) {p : ℕ × ℕ} (hp : p ∈ t) : look p.1 l = none := by
  cases hl : look p.1 l with
  | none => rfl
  | some s =>
    have := outside_sound (allKeys_mem h _ (look_mem hl))
    exact absurd rfl (look_none this p hp)

/-- the names written by the main part of `JMS_to_flavio` are not in the table -/
theorem main_JF (I : Inputs) {j f : String} (h : (j, f) ∈ dlep) : (values I JMS_to_flavio).get? f = none := by
  rw [dlep_eq] at h
  obtain ⟨p, hp, e⟩ := List.mem_map.1 h
  obtain ⟨-, rfl⟩ := Prod.mk.inj e
  rw [get_values I (tail_valid_mem hp).2 valid_JMS_to_flavio,
    look_isNone_of_outside writes_JMS_to_flavio (p := (p.2, p.1)) (List.mem_map.2 ⟨p, hp, rfl⟩)]
  rfl

theorem tail_roundtrip_JFJ (P : Params) (C : Dict String ℂ) :
    ∃ D E, run "JMS_to_flavio" P C = .ok D ∧ run "flavio_to_JMS" P D = .ok E ∧
      ∀ j f, (j, f) ∈ dlep → E.get? j = some (C.getD j 0) := by
  refine ⟨_, _, run_eq out_JF P C, run_eq out_FJ P _, fun j f h => ?_⟩
  rw [tail, if_neg (by decide), if_pos rfl, backward_mem _ _ _ dlep_nodup_fst h]
  congr 1
  unfold Dict.getD
  rw [tail, if_pos rfl, forward_mem _ _ _ dlep_nodup_snd h, main_JF _ h]
  cases C.get? j <;> rfl

theorem dlep_sectors : (forceT (treeOf tailJ) fun t => checkSectors (fun n => !outside t n)
    ["nunumue", "nunumutau", "nunutaue", "mutau", "mue", "taue", "muemutau", "etauemu"] WetTab.coefTable) = true := by
  decide +kernel

theorem mem_of_not_outside {t : List (ℕ × ℕ)} {n : ℕ} (h : (!outside (treeOf t) n) = true) : ∃ m, (n, m) ∈ t := by
  rw [outside, forceN_eq, treeOf_get] at h
  cases hl : look n t with
  | none => rw [hl] at h; cases h
  | some m => exact ⟨m, look_mem hl⟩

theorem restores_tail_JFJ : Restores "JMS_to_flavio" "flavio_to_JMS" fun x =>
    ∃ s ∈ ["nunumue", "nunumutau", "nunutaue", "mutau", "mue", "taue", "muemutau", "etauemu"], IsCoef s x := by
  intro P _ C
  obtain ⟨D, E, h1, h2, h3⟩ := tail_roundtrip_JFJ P C
  refine ⟨D, E, h1, h2, fun x ⟨s, hs, hx⟩ => ?_⟩
  have h := dlep_sectors
  rw [forceT_eq] at h
  obtain ⟨hp, hc⟩ := checkSectors_sound h hs hx
  obtain ⟨m, hm⟩ := mem_of_not_outside hc
  refine h3 x (decode m) ?_
  rw [dlep_eq]
  exact List.mem_map.2 ⟨_, hm, by rw [decode_code hp]⟩

theorem restores_tail_FJF : Restores "flavio_to_JMS" "JMS_to_flavio" fun x => ∃ j, (j, x) ∈ dlep := by
  intro P _ C
  refine ⟨_, _, run_eq out_FJ P C, run_eq out_JF P _, fun f ⟨j, h⟩ => ?_⟩
  rw [tail, if_pos rfl, forward_mem _ _ _ dlep_nodup_snd h,
    tail, if_neg (by decide), if_pos rfl, backward_mem _ _ _ dlep_nodup_fst h]
  rfl

/-! ## The table of the flavour-conserving coefficients -/

def allSnd (ok : ℕ → Bool) : List (ℕ × ℕ) → Bool
  | [] => true
  | p :: l => bif ok p.2 then allSnd ok l else false

theorem allSnd_mem {ok : ℕ → Bool} : ∀ {l : List (ℕ × ℕ)}, allSnd ok l = true → ∀ p ∈ l, ok p.2 = true
  | [], _, _, h => by cases h
  | q :: l, h, p, hm => by
    obtain ⟨h1, h2⟩ := cond_and h
    rcases List.mem_cons.1 hm with rfl | hm
    · exact h1
    · exact allSnd_mem h2 p hm

theorem cov_VII : (forceT (treeOf JMS_to_flavio) fun t => allSnd (present t .leaf) Gen.WetPy.tableVII) = true := by
  decide +kernel

theorem restores_VII : Restores "flavio_to_JMS" "JMS_to_flavio" fun x =>
    ∃ p ∈ Gen.WetPy.tableVII, x = decode p.2 := by
  intro P hP C
  obtain ⟨D, E, h1, h2, h3⟩ := back_FJF hP C
  refine ⟨D, E, h1, h2, ?_⟩
  rintro x ⟨p, hp, rfl⟩
  have h := cov_VII
  rw [forceT_eq] at h
  obtain ⟨⟨s, hs⟩, hb⟩ := present_sound (bad := []) (allSnd_mem h p hp)
  rw [h3 _ s hs]
  rfl

/-! ## Translating via a third basis -/

theorem keys_values {I : Inputs} {l : List (ℕ × Sym)} (hl : validL l = true) {x : String}
    (hx : x ∈ Dict.keys (values I l)) : ∃ n s, look n l = some s ∧ x = decode n ∧ validN n = true := by
  unfold Dict.keys values at hx
  rw [List.map_map] at hx
  obtain ⟨p, hp, rfl⟩ := List.mem_map.1 hx
  have hv := (validL_mem hl p hp).1
  have : (look p.1 l).isSome := by
    cases hk : look p.1 l with
    | none => exact absurd rfl (look_none hk p hp)
    | some s => rfl
  obtain ⟨s, hs⟩ := Option.isSome_iff_exists.1 this
  exact ⟨p.1, s, hs, rfl, hv⟩

theorem cov_BF_JF : (forceT (treeOf JMS_to_flavio) fun t => allKeys (present t .leaf) Bern_to_flavio) = true := by
  decide +kernel

theorem via_Bern {P : Params} (hP : Physical P) (C : Dict String ℂ) :
    ∃ D E F, run "JMS_to_Bern" P C = .ok D ∧ run "Bern_to_flavio" P D = .ok E ∧ run "JMS_to_flavio" P C = .ok F ∧
      ∀ x ∈ E.keys, E.get? x = F.get? x := by
  obtain ⟨D, E, h1, h2, h3⟩ := back_JBF hP C
  refine ⟨D, E, _, h1, h2, run_eq out_JF P C, fun x hx => ?_⟩
  rw [run_eq out_BF P D, tail_none (by decide) (by decide)] at h2
  cases h2
  obtain ⟨n, s, hs, rfl, hn⟩ := keys_values valid_Bern_to_flavio hx
  rw [h3 n s hs]
  have h := cov_BF_JF
  rw [forceT_eq] at h
  obtain ⟨⟨t, ht⟩, -⟩ := present_sound (bad := []) (allKeys_mem h _ (look_mem hs))
  rw [tail_forward _ _ _ hn (allKeys_mem writes_JMS_to_flavio _ (look_mem ht)), get_values _ hn valid_JMS_to_flavio, ht]
  rfl

/-- a name in the first table, or an exception -/
noncomputable def triOk (t b : DTree Sym) (n : ℕ) : Bool :=
  forceN (hash2 n) fun h =>
    match b.get h n with
    | some _ => true
    | none => match t.get h n with
      | some _ => true
      | none => false

theorem triOk_sound {l bad : List (ℕ × Sym)} {n : ℕ} (h : triOk (treeOf l) (treeOf bad) n = true)
    (hb : look n bad = none) : ∃ s, look n l = some s := by
  rw [triOk, forceN_eq, treeOf_get, treeOf_get, hb] at h
  cases hl : look n l with
  | none => rw [hl] at h; cases h
  | some s => exact ⟨s, rfl⟩

theorem cov_FB_tri : (forceT (treeOf JMS_to_Bern) fun t => forceT (treeOf sevens) fun b =>
    allKeys (triOk t b) flavio_to_Bern) = true := by
  decide +kernel

theorem look_map_sevens {n : ℕ} (f : Sym → Sym) : ∀ {l l' : List (ℕ × Sym)}, look n l = none →
    look n (l.map (fun p => (p.1, f p.2)) ++ l') = look n l'
  | [], _, _ => rfl
  | (k, s) :: l, l', h => by
    unfold look at h
    cases hk : Nat.beq k n with
    | true => rw [hk] at h; cases h
    | false =>
      rw [hk, cond_false] at h
      show (bif Nat.beq k n then _ else look n (l.map _ ++ l')) = _
      rw [hk, cond_false]
      exact look_map_sevens f h

theorem via_flavio {P : Params} (hP : Physical P) (C : Dict String ℂ) :
    ∃ D E F, run "JMS_to_flavio" P C = .ok D ∧ run "flavio_to_Bern" P D = .ok E ∧ run "JMS_to_Bern" P C = .ok F ∧
      ∀ x ∈ bernI ++ bernII ++ bernV ++ bernLep' ++ bernNu ++ bernDip, E.get? x = F.get? x ∧ x ∈ F.keys := by
  obtain ⟨D, E, h1, h2, h3⟩ := back_JFB hP C
  refine ⟨D, E, _, h1, h2, run_eq out_JB P C, fun x hx => ?_⟩
  have hc := cov_flavio_to_Bern
  rw [forceT_eq, forceT_eq] at hc
  have hx' : Plain x ∧ present (treeOf flavio_to_Bern) (treeOf sevens) (code x) = true := by
    simp only [bernI, bernII, bernV, bernLep', bernNu, bernDip, List.mem_append] at hx
    have H := checkCats_sound hc
    simp only [List.forall_mem_cons] at H
    obtain ⟨H1, H2, H3, H4, H5, H6, H7, -⟩ := H
    rcases hx with ((((h | h) | (h | h)) | h) | h) | h
    · exact H1 x h
    · exact H2 x h
    · exact H3 x h
    · exact H4 x h
    · exact H5 x h
    · exact H6 x h
    · exact H7 x h
  obtain ⟨hp, hc'⟩ := hx'
  obtain ⟨⟨s, hs⟩, hb⟩ := present_sound hc'
  have hn := (validL_mem valid_flavio_to_Bern _ (look_mem hs)).1
  have h := cov_FB_tri
  rw [forceT_eq, forceT_eq] at h
  obtain ⟨t, ht⟩ := triOk_sound (allKeys_mem h _ (look_mem hs)) hb
  have h5 := h3 _ s hs
  rw [sevensTri, look_map_sevens toTri hb, ht, decode_code hp] at h5
  have h6 : (tail "JMS_to_Bern" C (values (inputsOf P C) JMS_to_Bern)).get? x = some (t.eval (inputsOf P C)) := by
    rw [tail_none (by decide) (by decide)]
    have := get_values (inputsOf P C) hn valid_JMS_to_Bern
    rw [ht, decode_code hp] at this
    exact this
  refine ⟨by rw [h5, h6]; rfl, ?_⟩
  rw [← Dict.isSome_get?_iff, h6]
  rfl

theorem names_BF (P : Params) (C : Dict String ℂ) :
    ∃ E, run "Bern_to_flavio" P C = .ok E ∧
      ∀ x ∈ flavioI ++ flavioII ++ flavioV ++ flavioLep' ++ flavioNu ++ flavioDip, x ∈ E.keys := by
  refine ⟨_, run_eq out_BF P C, fun x hx => ?_⟩
  have hc := cov_Bern_to_flavio
  rw [forceT_eq, forceT_eq] at hc
  have hx' : Plain x ∧ present (treeOf Bern_to_flavio) (treeOf lostSd) (code x) = true := by
    simp only [flavioI, flavioII, flavioV, flavioLep', flavioNu, flavioDip, List.mem_append] at hx
    have H := checkCats_sound hc
    simp only [List.forall_mem_cons] at H
    obtain ⟨H1, H2, H3, H4, H5, H6, H7, -⟩ := H
    rcases hx with ((((h | h) | (h | h)) | h) | h) | h
    · exact H1 x h
    · exact H2 x h
    · exact H3 x h
    · exact H4 x h
    · exact H5 x h
    · exact H6 x h
    · exact H7 x h
  obtain ⟨hp, hc'⟩ := hx'
  obtain ⟨⟨s, hs⟩, hb⟩ := present_sound hc'
  rw [← Dict.isSome_get?_iff, tail_none (by decide) (by decide)]
  have := get_values (inputsOf P C) (validL_mem valid_Bern_to_flavio _ (look_mem hs)).1 valid_Bern_to_flavio
  rw [hs, decode_code hp] at this
  rw [this]
  rfl

end Verif.WetApply
