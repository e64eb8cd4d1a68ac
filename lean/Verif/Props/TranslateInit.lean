import Verif.Model.TranslateInit
import Verif.Props.SmeftHiggs
import Verif.Props.WarsawUp

/-!
# C97: the composite translators between the Warsaw and the Higgs-Warsaw up basis
-/

set_option autoImplicit false

namespace Verif.TranslateInit
open Verif Verif.EFT Verif.Tens Verif.Beta Verif.Rotation Verif.Spec Verif.Flavour Verif.Bridge
  Verif.TranslateSmeft Verif.Props Verif.SmeftHiggs Classical

variable {U : Util}

/-! ## Keys -/

theorem get_chars (C : Dict String ℂ) (s : Str) : (chars C).get? s = C.get? (String.ofList s) := by
  induction C with
  | nil => rfl
  | cons e C ih =>
    obtain ⟨k, v⟩ := e
    show (if k.toList = s then some v else (chars C).get? s) = if k = String.ofList s then some v else Dict.get? C _
    rw [ih]
    have : k.toList = s ↔ k = String.ofList s :=
      ⟨fun h => by rw [← h, String.ofList_toList], fun h => by rw [h, String.toList_ofList]⟩
    simp only [this]

theorem get_strings (C : Dict Str ℂ) (s : String) : (strings C).get? s = C.get? s.toList := by
  induction C with
  | nil => rfl
  | cons e C ih =>
    obtain ⟨k, v⟩ := e
    show (if String.ofList k = s then some v else (strings C).get? s) = if k = s.toList then some v else Dict.get? C _
    rw [ih]
    have : String.ofList k = s ↔ k = s.toList :=
      ⟨fun h => by rw [← h, String.toList_ofList], fun h => by rw [h, String.ofList_toList]⟩
    simp only [this]

theorem keys_chars (C : Dict String ℂ) : (chars C).keys = C.keys.map String.toList := by
  simp [chars, Dict.keys, Function.comp_def]

theorem nodup_chars {C : Dict String ℂ} (h : C.NodupKeys) : (chars C).NodupKeys := by
  rw [Dict.NodupKeys, keys_chars]
  exact List.Nodup.map (fun a b h => by rw [← String.ofList_toList (s := a), h, String.ofList_toList]) h

theorem mem_names {wb : List String} (hw : wb = U.allWcs.map String.ofList) (s : Str) :
    String.ofList s ∈ wb ↔ s ∈ U.allWcs := by
  rw [hw, List.mem_map]
  constructor
  · rintro ⟨a, ha, e⟩
    have := congrArg String.toList e
    rw [String.toList_ofList, String.toList_ofList] at this
    exact this ▸ ha
  · exact fun h => ⟨s, h, rfl⟩

theorem chars_names {wb : List String} (hw : wb = U.allWcs.map String.ofList) {C : Dict String ℂ}
    (h : ∀ x ∈ C.keys, x ∈ wb) : ∀ n ∈ (chars C).keys, n ∈ U.allWcs := by
  intro n hn
  rw [keys_chars] at hn
  obtain ⟨x, hx, rfl⟩ := List.mem_map.1 hn
  rw [← mem_names hw, String.ofList_toList]
  exact h x hx

/-! ## The rotation of the quark doublets -/

/-- the coefficients that are real by hermiticity come out real, and there are no zeros -/
theorem translate_real (hS : IsSmeft U) (W : Mat) (d : Dict Str ℂ) (hd : d.NodupKeys)
    (hk : ∀ n ∈ d.keys, n ∈ U.allWcs) {d1 : Dict Str ℂ} (h1 : translateQ U W d = .ok d1) (n : Str) :
    d1.get? n = ((d1.get? n).map fun z => if RealName U n then (z.re : ℂ) else z).filter
        (fun z => decide (z ≠ 0)) := by
  obtain ⟨C, e, hC⟩ := good_read hS d hd hk
  obtain ⟨D, eD, hD, -⟩ := good_rot (onlyQ W) hC
  obtain ⟨d', C1, e1, n1, k1, e2, n2, g⟩ := good_nonred hS hD
  have eD' : flavorRotationStr C W 1 1 1 1 = .ok D := by simpa [onlyQ] using eD
  have : translateQ U W d = .ok d' := by
    show (lift (U.wcxf2arraysSymmetrized d) >>= _) = _
    rw [e]
    show (flavorRotationStr C W 1 1 1 1 >>= fun D => lift (U.arrays2wcxfNonred D)) = .ok d'
    rw [eD']
    show lift (U.arrays2wcxfNonred D) = .ok d'
    rw [e1]; rfl
  obtain rfl : d1 = d' := Except.ok.inj (h1.symm.trans this)
  obtain ⟨C2, d2, c1, c2, c3⟩ := C23_roundtrip hS.regular hS.complete.names d1 n1 k1
  obtain rfl : C2 = C1 := Except.ok.inj (c1.symm.trans e2)
  rw [← c3 n]
  exact (nonred_congr hS.regular hS.complete hD.nodup n2 (good_fits hS hD) (good_all hS hD) g e1 c2 n).symm

/-- missing coefficients and zeros are the same -/
theorem translate_getD (hS : IsSmeft U) (W : Mat) (d d' : Dict Str ℂ) (hd : d.NodupKeys) (hd' : d'.NodupKeys)
    (hk : ∀ n ∈ d.keys, n ∈ U.allWcs) (hk' : ∀ n ∈ d'.keys, n ∈ U.allWcs)
    (h : ∀ n, d.getD n 0 = d'.getD n 0) :
    ∃ e e', translateQ U W d = .ok e ∧ translateQ U W d' = .ok e' ∧ ∀ n, e'.get? n = e.get? n := by
  obtain ⟨C, c, hC⟩ := good_read hS d hd hk
  obtain ⟨C', c', hC'⟩ := good_read hS d' hd' hk'
  have same : ∀ s, C'.get? s = C.get? s := by
    obtain ⟨B, b, -, -, hno, hyes⟩ := Util.readSym hS.regular hS.complete d hd hk
    obtain ⟨B', b', -, -, hno', hyes'⟩ := Util.readSym hS.regular hS.complete d' hd' hk'
    obtain rfl : B = C := Except.ok.inj (b.symm.trans c)
    obtain rfl : B' = C' := Except.ok.inj (b'.symm.trans c')
    intro s
    by_cases hs : s ∈ U.wcKeys
    · obtain ⟨k, hk, rfl⟩ := (hS.wc s).1 hs
      have : Util.given d' (keyName k) (shapeK k) = Util.given d (keyName k) (shapeK k) := by
        have h' : ∀ n, (d'.get? n).getD 0 = (d.get? n).getD 0 := fun n => (h n).symm
        cases shapeK k with
        | none => simp only [Util.given, h']
        | some l => simp only [Util.given, Util.collect, h']
      rw [hyes _ hs _ _ (keyOK_of hS hk), hyes' _ hs _ _ (keyOK_of hS hk), this]
    · rw [hno s hs, hno' s hs]
  obtain ⟨D, eD, hD, r⟩ := good_rot (onlyQ W) hC
  obtain ⟨D', eD', hD', r'⟩ := good_rot (onlyQ W) hC'
  have sameD : ∀ s, D'.get? s = D.get? s := by
    refine good_ext hD' hD fun k hk v' v hv' hv ix hix => ?_
    obtain ⟨τ, hτ, hl⟩ := smeftTy_some ((coeff_iff k).1 hk).1
    obtain ⟨w, hw, -⟩ := hC.have_ k hk
    rw [r k hk τ hτ w v hw hv ix (by rw [hix, hl]),
      r' k hk τ hτ w v' (by rw [same]; exact hw) hv' ix (by rw [hix, hl])]
  obtain ⟨e, -, e1, -⟩ := good_nonred hS hD
  obtain ⟨e', -, e1', -⟩ := good_nonred hS hD'
  have t : ∀ {d : Dict Str ℂ} {C D : Dict Str AVal} {e : Dict Str ℂ}, U.wcxf2arraysSymmetrized d = .ok C →
      flavorRotationStr C (onlyQ W .q) (onlyQ W .u) (onlyQ W .d) (onlyQ W .l) (onlyQ W .e) = .ok D →
      U.arrays2wcxfNonred D = .ok e → translateQ U W d = .ok e := by
    intro d C D e h1 h2 h3
    have h2 : flavorRotationStr C W 1 1 1 1 = .ok D := by simpa [onlyQ] using h2
    show (lift (U.wcxf2arraysSymmetrized d) >>= _) = _
    rw [h1]
    show (flavorRotationStr C W 1 1 1 1 >>= fun D => lift (U.arrays2wcxfNonred D)) = .ok e
    rw [h2]
    show lift (U.arrays2wcxfNonred D) = .ok e
    rw [h3]; rfl
  exact ⟨e, e', t c eD e1, t c' eD' e1', nonred_congr hS.regular hS.complete hD.nodup hD'.nodup
    (good_fits hS hD) (good_all hS hD) sameD e1 e1'⟩

/-! ## Real coefficients -/

/-- the coefficients that differ between the bases: those without indices … -/
def keys0 : List Key :=
  [.phi, .phiBox, .phiD, .phiG, .phiW, .phiB, .phiWB, .phiGtilde, .phiWtilde, .phiBtilde, .phiWtildeB]

/-- … and those with two -/
def keys2 : List Key := [.phil3, .phiq3, .phil1, .phiq1, .phie, .phiu, .phid, .phiud]

theorem keys0_ok : ∀ k ∈ keys0, k ∈ coeffKeys ∧ rankOf k = 0 := by decide +kernel

theorem keys2_ok : ∀ k ∈ keys2, k ∈ coeffKeys ∧ rankOf k = 2 := by decide +kernel

/-- pairs of generations -/
def upperI : List I2 := [(0, 0), (0, 1), (0, 2), (1, 1), (1, 2), (2, 2)]

theorem real_eq : warsawReal.map String.toList = keys0.map keyName ++
    (keys2.take 7).flatMap fun k => ([0, 1, 2] : List (Fin 3)).map fun i => Util.wcName (keyName k) (Util.idx2 (i, i)) := by
  decide +kernel

theorem names_eq : warsawNames.map String.toList = keys0.map keyName ++
    (((keys2.take 7).flatMap fun k => upperI.map fun i => Util.wcName (keyName k) (Util.idx2 i)) ++
      Reflect.all2I.map fun i => Util.wcName (keyName .phiud) (Util.idx2 i)) := by
  decide +kernel

theorem toList_inj {a b : String} (h : a.toList = b.toList) : a = b := by
  rw [← String.ofList_toList (s := a), h, String.ofList_toList]

theorem real_cases {x : String} (hx : x ∈ warsawReal) : (∃ k ∈ keys0, x.toList = keyName k) ∨
    ∃ k ∈ keys2.take 7, ∃ i : Fin 3, x.toList = Util.wcName (keyName k) (Util.idx2 (i, i)) := by
  have := List.mem_map_of_mem (f := String.toList) hx
  rw [real_eq] at this
  rcases List.mem_append.1 this with h | h
  · obtain ⟨k, hk, e⟩ := List.mem_map.1 h
    exact .inl ⟨k, hk, e.symm⟩
  · obtain ⟨k, hk, h⟩ := List.mem_flatMap.1 h
    obtain ⟨i, -, e⟩ := List.mem_map.1 h
    exact .inr ⟨k, hk, i, e.symm⟩

theorem mem_real {x : String} (h : (∃ k ∈ keys0, x.toList = keyName k) ∨
    ∃ k ∈ keys2.take 7, ∃ i : Fin 3, x.toList = Util.wcName (keyName k) (Util.idx2 (i, i))) : x ∈ warsawReal := by
  have : x.toList ∈ warsawReal.map String.toList := by
    rw [real_eq]
    rcases h with ⟨k, hk, e⟩ | ⟨k, hk, i, e⟩
    · exact List.mem_append_left _ (List.mem_map.2 ⟨k, hk, e.symm⟩)
    · refine List.mem_append_right _ (List.mem_flatMap.2 ⟨k, hk, List.mem_map.2 ⟨i, ?_, e.symm⟩⟩)
      clear e
      revert i; decide
  obtain ⟨y, hy, e⟩ := List.mem_map.1 this
  exact toList_inj e ▸ hy

theorem name_cases {x : String} (hx : x ∈ warsawNames) : (∃ k ∈ keys0, x.toList = keyName k) ∨
    (∃ k ∈ keys2.take 7, ∃ i ∈ upperI, x.toList = Util.wcName (keyName k) (Util.idx2 i)) ∨
    ∃ i, x.toList = Util.wcName (keyName .phiud) (Util.idx2 i) := by
  have := List.mem_map_of_mem (f := String.toList) hx
  rw [names_eq] at this
  rcases List.mem_append.1 this with h | h
  · obtain ⟨k, hk, e⟩ := List.mem_map.1 h
    exact .inl ⟨k, hk, e.symm⟩
  rcases List.mem_append.1 h with h | h
  · obtain ⟨k, hk, h⟩ := List.mem_flatMap.1 h
    obtain ⟨i, hi, e⟩ := List.mem_map.1 h
    exact .inr (.inl ⟨k, hk, i, hi, e.symm⟩)
  · obtain ⟨i, -, e⟩ := List.mem_map.1 h
    exact .inr (.inr ⟨i, e.symm⟩)

theorem keys2_cls : ∀ k ∈ keys2.take 7, fullClass k = 2 := by decide +kernel

theorem upper_nonred : ∀ i ∈ upperI, NonRedOf2 2 i := by decide

theorem self2 : ∀ i : I2, SelfConj rels2 i ↔ i.1 = i.2 := by decide

theorem in2 : ∀ i : I2, inRange [3, 3] (Util.idx2 i) = true := by decide

theorem nonred2 (hS : IsSmeft U) {k : Key} (hk : k ∈ keys2) {i : I2} (hi : NonRedOf2 (fullClass k) i) :
    NonRedName U (Util.wcName (keyName k) (Util.idx2 i)) (RealOf2 (fullClass k) i) := by
  obtain ⟨hk, h2⟩ := keys2_ok k hk
  exact .two (s := [3, 3]) (by rw [hS.shape k hk, shapeK, h2]; rfl) (hS.cls k hk) (in2 i) hi

theorem nonred1 : ∀ i : I2, NonRedOf2 1 i := by decide

theorem phiud_cls : fullClass .phiud = 1 := by decide +kernel

theorem real_names (hS : IsSmeft U) : ∀ x ∈ "ll_1221" :: warsawReal, RealName U x.toList := by
  intro x hx
  rcases List.mem_cons.1 hx with rfl | h
  · have hk : Key.ll ∈ coeffKeys := by decide +kernel
    have e : "ll_1221".toList = Util.wcName (keyName .ll) (Util.idx4 (0, 1, 1, 0)) := by decide +kernel
    rw [e]
    refine ⟨_, .four (s := [3, 3, 3, 3]) (c := fullClass .ll) (by rw [hS.shape _ hk]; rfl) (hS.cls _ hk) (by decide)
      (by decide +kernel), Or.inl ⟨by decide +kernel, ?_⟩⟩
    decide +kernel
  · rcases real_cases h with ⟨k, hk, e⟩ | ⟨k, hk, i, e⟩
    · obtain ⟨hk, h0⟩ := keys0_ok k hk
      rw [e]
      exact ⟨True, .scalar (by rw [hS.shape k hk, shapeK, if_pos h0]), trivial⟩
    · have hc := keys2_cls k hk
      rw [e]
      refine ⟨_, nonred2 hS (List.mem_of_mem_take hk) (i := (i, i)) ?_, hc, (self2 _).2 rfl⟩
      rw [hc]
      exact upper_nonred _ (by clear e; revert i; decide)

/-- the other coefficients that differ between the bases are complex -/
theorem complex_names (hS : IsSmeft U) {x : String} (hx : x ∈ warsawNames) (hn : x ∉ warsawReal) :
    ¬RealName U x.toList := by
  rintro ⟨r, hN, hr⟩
  rcases name_cases hx with h | ⟨k, hk, i, hi, e⟩ | ⟨i, e⟩
  · exact hn (mem_real (.inl h))
  · have hc := keys2_cls k hk
    have h0 := nonred2 hS (List.mem_of_mem_take hk) (i := i) (by rw [hc]; exact upper_nonred i hi)
    rw [e] at hN
    have h3 := (self2 i).1 ((Util.name_unique hS.regular hN h0).1 hr).2
    exact hn (mem_real (.inr ⟨k, hk, i.1, by rw [e]; congr 2; exact Prod.ext rfl h3.symm⟩))
  · have h0 := nonred2 hS (k := .phiud) (by decide) (i := i) (by rw [phiud_cls]; exact nonred1 i)
    rw [e] at hN
    have h1 := ((Util.name_unique hS.regular hN h0).1 hr).1
    rw [phiud_cls] at h1
    cases h1

theorem ofReal_ex {z : ℂ} (h : z.im = 0) : ∃ r : ℝ, z = r := ⟨z.re, (re_of_im h).symm⟩

/-- the coefficients of the Warsaw basis computed from real coefficients are real -/
theorem warsaw_real {V : Mat} {q : Couplings} {H : String → ℂ}
    (h : ∀ x ∈ "ll_1221" :: higgsReal, (H x).im = 0) {x : String} {v : ℂ}
    (hv : (x, v) ∈ warsawScalars q H ++ warsawTensors V q H) (hx : x ∈ warsawReal) : v.im = 0 := by
  have hr : ∀ x ∈ higgsReal, (H x).im = 0 := fun x hx => h x (List.mem_cons_of_mem _ hx)
  have r1 := C1_real (q := q) hr
  have r2 := C2_real (q := q) hr
  obtain ⟨du, dd, dw⟩ := diag_real hr
  have rd : ∀ i, (dLrot V H i i).im = 0 := fun i =>
    Complex.conj_eq_iff_im.1 (star_conj V _ (herm_star dd) i i)
  rcases List.mem_append.1 hv with hv | hv
  · obtain ⟨a0, ea0⟩ := ofReal_ex (h "ll_1221" List.mem_cons_self)
    obtain ⟨a1, ea1⟩ := ofReal_ex (hr "deltacz" (by decide +kernel))
    obtain ⟨a2, ea2⟩ := ofReal_ex (hr "deltalambda3" (by decide +kernel))
    obtain ⟨a3, ea3⟩ := ofReal_ex (hr "czBox" (by decide +kernel))
    obtain ⟨a4, ea4⟩ := ofReal_ex (hr "czz" (by decide +kernel))
    obtain ⟨a5, ea5⟩ := ofReal_ex (hr "czgamma" (by decide +kernel))
    obtain ⟨a6, ea6⟩ := ofReal_ex (hr "cgammagamma" (by decide +kernel))
    obtain ⟨a7, ea7⟩ := ofReal_ex (hr "cgg" (by decide +kernel))
    obtain ⟨a8, ea8⟩ := ofReal_ex (hr "czztilde" (by decide +kernel))
    obtain ⟨a9, ea9⟩ := ofReal_ex (hr "czgammatilde" (by decide +kernel))
    obtain ⟨b1, eb1⟩ := ofReal_ex (hr "cgammagammatilde" (by decide +kernel))
    obtain ⟨b2, eb2⟩ := ofReal_ex (hr "cggtilde" (by decide +kernel))
    obtain ⟨b3, eb3⟩ := ofReal_ex (hr "deltagWlL_11" (by decide +kernel))
    obtain ⟨b4, eb4⟩ := ofReal_ex (hr "deltagWlL_22" (by decide +kernel))
    simp only [warsawScalars, dM, List.mem_cons, List.not_mem_nil, or_false, Prod.mk.injEq] at hv
    rcases hv with ⟨-, rfl⟩ | ⟨-, rfl⟩ | ⟨-, rfl⟩ | ⟨-, rfl⟩ | ⟨-, rfl⟩ | ⟨-, rfl⟩ | ⟨-, rfl⟩ | ⟨-, rfl⟩ |
      ⟨-, rfl⟩ | ⟨-, rfl⟩ | ⟨-, rfl⟩ <;>
    · simp only [ea0, ea1, ea2, ea3, ea4, ea5, ea6, ea7, ea8, ea9, eb1, eb2, eb3, eb4]
      norm_cast
  · obtain ⟨i, j, hv⟩ := mem_loop.1 hv
    rcases List.mem_append.1 hv with hv | hv
    · split_ifs at hv with hij
      · by_cases e : i = j
        · subst e
          have k1 : ∀ i, ix "deltagZeL" i i ∈ higgsReal := by decide +kernel
          have k2 : ∀ i, ix "deltagZeR" i i ∈ higgsReal := by decide +kernel
          have k3 : ∀ i, ix "deltagZuR" i i ∈ higgsReal := by decide +kernel
          have k4 : ∀ i, ix "deltagZdR" i i ∈ higgsReal := by decide +kernel
          obtain ⟨a1, ea1⟩ := ofReal_ex (hr _ (k1 i))
          obtain ⟨a2, ea2⟩ := ofReal_ex (hr _ (k2 i))
          obtain ⟨a3, ea3⟩ := ofReal_ex (hr _ (k3 i))
          obtain ⟨a4, ea4⟩ := ofReal_ex (hr _ (k4 i))
          obtain ⟨a5, ea5⟩ := ofReal_ex (du i)
          obtain ⟨a6, ea6⟩ := ofReal_ex (dw i)
          obtain ⟨a7, ea7⟩ := ofReal_ex (rd i)
          obtain ⟨a8, ea8⟩ := ofReal_ex r1
          obtain ⟨a9, ea9⟩ := ofReal_ex r2
          simp only [eye, if_true, List.mem_cons, List.not_mem_nil, or_false, Prod.mk.injEq] at hv
          rcases hv with ⟨-, rfl⟩ | ⟨-, rfl⟩ | ⟨-, rfl⟩ | ⟨-, rfl⟩ | ⟨-, rfl⟩ | ⟨-, rfl⟩ | ⟨-, rfl⟩ <;>
          · simp only [ea1, ea2, ea3, ea4, ea5, ea6, ea7, ea8, ea9]
            rw [← Complex.conj_eq_iff_im]
            simp [Complex.conj_ofNat]
        · exfalso
          have no : ∀ k ∈ ["phil3", "phiq3", "phil1", "phiq1", "phie", "phiu", "phid"], ∀ i j : Fin 3, i ≠ j →
              ix k i j ∉ warsawReal := by decide +kernel
          simp only [List.mem_cons, List.not_mem_nil, or_false, Prod.mk.injEq] at hv
          rcases hv with ⟨rfl, -⟩ | ⟨rfl, -⟩ | ⟨rfl, -⟩ | ⟨rfl, -⟩ | ⟨rfl, -⟩ | ⟨rfl, -⟩ | ⟨rfl, -⟩ <;>
            exact no _ (by simp) i j e hx
      · cases hv
    · exfalso
      have no : ∀ i j : Fin 3, ix "phiud" i j ∉ warsawReal := by decide +kernel
      simp only [List.mem_cons, List.not_mem_nil, or_false, Prod.mk.injEq] at hv
      obtain ⟨rfl, -⟩ := hv
      exact no i j hx

section
variable {hb wb : List String} {ckm : Ckm} {defaults : Dict String ℝ} {parameters : Option (Dict String ℝ)}

theorem nodup_out (B : SmeftHiggs.Bases hb wb) {C W : Dict String ℂ}
    (h : higgslikeToWarsawUp hb wb ckm defaults C parameters = .ok W) : W.NodupKeys := by
  unfold higgslikeToWarsawUp at h
  cases h1 : ckmOf ckm (params defaults parameters) with
  | error e => rw [h1] at h; cases h
  | ok V =>
    cases h2 : couplings (params defaults parameters) with
    | error e => rw [h1, h2] at h; cases h
    | ok q =>
      rw [h1, h2] at h
      simp only [bind, Except.bind] at h
      split_ifs at h
      rw [← Except.ok.inj h]
      exact Dict.nodupKeys_filterKV _ _ (Dict.nodupKeys_update _ _ (nodup_fill B.nodup_h C))

/-- the values of the first translation that are real by hermiticity are real -/
theorem out_real (B : SmeftHiggs.Bases hb wb) (hp : Physical (params defaults parameters)) {C W : Dict String ℂ}
    (hC : ∀ x ∈ "ll_1221" :: higgsReal, (C.getD x 0).im = 0)
    (h : higgslikeToWarsawUp hb wb ckm defaults C parameters = .ok W) :
    (∀ x ∈ warsawReal, (W.getD x 0).im = 0) ∧ (∀ x ∉ warsawNames, x ∈ wb → W.getD x 0 = C.getD x 0) ∧
      ∀ x ∈ W.keys, x ∈ wb := by
  obtain ⟨q, hq, -⟩ := couplings_ok hp
  have hk := ckmOf_ok hp ckm
  simp only [higgslikeToWarsawUp, hk, hq, reads_h B, bind, Except.bind, if_true] at h
  have h := Except.ok.inj h
  set V := ckm ((params defaults parameters).getD "Vus" 0) ((params defaults parameters).getD "Vub" 0)
    ((params defaults parameters).getD "Vcb" 0) ((params defaults parameters).getD "gamma" 0)
  set H : String → ℂ := fun k => (fill hb C).getD k 0 with hH
  have nW : (warsawScalars q H ++ warsawTensors V q H).NodupKeys := by
    rw [Dict.NodupKeys, keys_warsaw]; exact nodup_warsaw
  have gR := get_out (b' := wb) B.nodup_h C nW
  rw [h] at gR
  have sub : ∀ x ∈ higgsReal, x ∈ higgsNames := by decide +kernel
  have hr : ∀ x ∈ "ll_1221" :: higgsReal, (H x).im = 0 := by
    intro x hx
    have : x ∈ hb := by
      rcases List.mem_cons.1 hx with rfl | h
      · exact B.ll
      · exact (B.higgs x (sub x h)).1
    show (((fill hb C).get? x).getD 0).im = 0
    rw [get_fill, if_pos this]
    exact hC x hx
  refine ⟨fun x hx => ?_, fun x hx hxw => ?_, fun x hx => ?_⟩
  · have sub' : ∀ x ∈ warsawReal, x ∈ warsawNames := by decide +kernel
    have hmem : x ∈ (warsawScalars q H ++ warsawTensors V q H).keys := by
      rw [keys_warsaw]; exact mem_warsaw.2 x (sub' x hx)
    obtain ⟨⟨y, v⟩, hv, rfl⟩ := List.mem_map.1 hmem
    have := warsaw_real hr hv hx
    show ((W.get? y).getD 0).im = 0
    rw [gR, if_pos (B.warsaw _ (sub' _ hx)).1, Dict.get?_of_mem nW hv]
    exact this
  · have : Dict.get? (warsawScalars q H ++ warsawTensors V q H) x = none := by
      rw [Dict.get?_eq_none_iff, keys_warsaw]
      exact fun h => hx (mem_warsaw.1 x h)
    have hxh : x ∈ hb := (B.common x (fun h => (B.higgs x h).2 hxw) hx).2 hxw
    show (W.get? x).getD 0 = _
    rw [gR, if_pos hxw, this, if_pos hxh]
    rfl
  · by_contra hn
    have := (Dict.isSome_get?_iff _ _).2 hx
    rw [gR, if_neg hn] at this
    cases this

theorem out_congr {C C' : Dict String ℂ} (h : ∀ x ∈ wb, C'.getD x 0 = C.getD x 0) :
    warsawUpToHiggslike hb wb ckm defaults C' parameters = warsawUpToHiggslike hb wb ckm defaults C parameters := by
  have : fill wb C' = fill wb C := List.map_congr_left fun x hx => by rw [h x hx]
  unfold warsawUpToHiggslike
  rw [this]

/-- **C97 (Warsaw → Higgs-Warsaw up → Warsaw).** The composite translators succeed on every dictionary of Warsaw
coefficients and together give back the values put in (the real part for coefficients that are real by
hermiticity; zeros are dropped). -/
theorem C97_warsaw_and_back (hS : IsSmeft U) (B : SmeftHiggs.Bases hb wb) (hw : wb = U.allWcs.map String.ofList)
    (hp : Physical (params defaults parameters)) (hV : ∀ a b c d, ckm a b c d ∈ Matrix.unitaryGroup (Fin 3) ℂ)
    (d : Dict String ℂ) (hd : d.NodupKeys) (hk : ∀ x ∈ d.keys, x ∈ wb) :
    ∃ H E, warsawToHiggsUp U hb wb ckm defaults d parameters = .ok H ∧
      higgsUpToWarsaw U hb wb ckm defaults H parameters = .ok E ∧
      ∀ x, E.get? x = ((d.get? x).map fun z => if RealName U x.toList then (z.re : ℂ) else z).filter
        (fun z => decide (z ≠ 0)) := by
  have hck := ckmOf_ok hp ckm
  have hu := hV ((params defaults parameters).getD "Vus" 0) ((params defaults parameters).getD "Vub" 0)
    ((params defaults parameters).getD "Vcb" 0) ((params defaults parameters).getD "gamma" 0)
  generalize ckm ((params defaults parameters).getD "Vus" 0) ((params defaults parameters).getD "Vub" 0)
    ((params defaults parameters).getD "Vcb" 0) ((params defaults parameters).getD "gamma" 0) = V at hck hu
  obtain ⟨d1, d2, h1, n1, k1, h2, h3⟩ := translate_back hS V.conjTranspose V
    (Matrix.mem_unitaryGroup_iff'.1 hu) (chars d) (nodup_chars hd) (chars_names hw hk)
  have re1 := translate_real hS _ _ (nodup_chars hd) (chars_names hw hk) h1
  have hreal : ∀ x ∈ "ll_1221" :: warsawReal, ((strings d1).getD x 0).im = 0 := by
    intro x hx
    have hR := real_names hS x hx
    show (((strings d1).get? x).getD 0).im = 0
    rw [get_strings, re1]
    cases d1.get? x.toList with
    | none => rfl
    | some z =>
      rw [Option.map_some, if_pos hR, Option.filter_some]
      split <;> simp
  obtain ⟨H, E1, g1, g2, g3⟩ := C34_warsaw_to_higgs_and_back (ckm := ckm) B hp
    (fun a b c d => Matrix.mem_unitaryGroup_iff.1 (hV a b c d)) (strings d1) hreal
  have nE := nodup_out B g2
  have kE : ∀ x ∈ E1.keys, x ∈ wb := by
    intro x hx
    by_contra hn
    have := (Dict.isSome_get?_iff _ _).2 hx
    rw [g3, if_neg hn] at this
    cases this
  have eqv : ∀ n, d1.getD n 0 = (chars E1).getD n 0 := by
    intro n
    show (d1.get? n).getD 0 = ((chars E1).get? n).getD 0
    rw [get_chars, g3]
    by_cases hn : n ∈ U.allWcs
    · rw [if_pos ((mem_names hw n).2 hn)]
      show _ = ((strings d1).get? _).getD 0
      rw [get_strings, String.toList_ofList]
    · rw [if_neg fun h => hn ((mem_names hw n).1 h)]
      have : d1.get? n = none := by
        rw [Dict.get?_eq_none_iff]
        exact fun h => hn (k1 n h)
      rw [this]
  obtain ⟨e, e', t1, t2, t3⟩ := translate_getD hS V d1 (chars E1) n1 (nodup_chars nE) k1 (chars_names hw kE) eqv
  obtain rfl : e = d2 := Except.ok.inj (t1.symm.trans h2)
  refine ⟨H, strings e', ?_, ?_, fun x => ?_⟩
  · show (warsawToWarsawUp U ckm defaults (chars d) parameters >>= _) = _
    rw [(up_eq hck hS _ (nodup_chars hd) (chars_names hw hk)).1, h1]
    exact g1
  · show (higgslikeToWarsawUp hb wb ckm defaults H parameters >>= _) = _
    rw [g2]
    show (warsawUpToWarsaw U ckm defaults (chars E1) parameters >>= _) = _
    rw [(up_eq hck hS _ (nodup_chars nE) (chars_names hw kE)).2, t2]
    rfl
  · rw [get_strings, t3, h3, get_chars, String.ofList_toList]

/-- **C97 (Higgs-Warsaw up → Warsaw → Higgs-Warsaw up).** The composite translators together return the
dictionary completed by zeros, if the coefficients that are real by hermiticity are. -/
theorem C97_higgs_and_back (hS : IsSmeft U) (B : SmeftHiggs.Bases hb wb) (hw : wb = U.allWcs.map String.ofList)
    (hp : Physical (params defaults parameters)) (hV : ∀ a b c d, ckm a b c d ∈ Matrix.unitaryGroup (Fin 3) ℂ)
    (C : Dict String ℂ) (hC : ∀ x, x ∈ higgsReal ∨ RealName U x.toList → (C.getD x 0).im = 0) :
    ∃ W E, higgsUpToWarsaw U hb wb ckm defaults C parameters = .ok W ∧
      warsawToHiggsUp U hb wb ckm defaults W parameters = .ok E ∧
      ∀ x, E.get? x = if x ∈ hb then some (C.getD x 0) else none := by
  have hck := ckmOf_ok hp ckm
  have hu := hV ((params defaults parameters).getD "Vus" 0) ((params defaults parameters).getD "Vub" 0)
    ((params defaults parameters).getD "Vcb" 0) ((params defaults parameters).getD "gamma" 0)
  obtain ⟨W0, E, g1, g2, g3⟩ := C34_higgs_to_warsaw_and_back (ckm := ckm) B hp
    (fun a b c d => Matrix.mem_unitaryGroup_iff'.1 (hV a b c d)) C (fun x hx => hC x (.inl hx))
  generalize ckm ((params defaults parameters).getD "Vus" 0) ((params defaults parameters).getD "Vub" 0)
    ((params defaults parameters).getD "Vcb" 0) ((params defaults parameters).getD "gamma" 0) = V at hck hu
  have nW := nodup_out B g1
  obtain ⟨o1, o2, kW⟩ := out_real B hp (fun x hx => by
    rcases List.mem_cons.1 hx with rfl | h
    · exact hC _ (.inr (real_names hS _ List.mem_cons_self))
    · exact hC x (.inl h)) g1
  obtain ⟨d1, d2, h1, n1, k1, h2, h3⟩ := translate_back hS V V.conjTranspose
    (Matrix.mem_unitaryGroup_iff.1 hu) (chars W0) (nodup_chars nW) (chars_names hw kW)
  have kd1 : ∀ x ∈ (strings d1).keys, x ∈ wb := by
    intro x hx
    have := (Dict.isSome_get?_iff _ _).2 hx
    rw [get_strings, Dict.isSome_get?_iff] at this
    rw [← String.ofList_toList (s := x)]
    exact (mem_names hw _).2 (k1 _ this)
  have ee : chars (strings d1) = d1 := by
    simp [chars, strings, Function.comp_def]
  have eqv : ∀ x ∈ wb, (strings d2).getD x 0 = W0.getD x 0 := by
    intro x hx
    show ((strings d2).get? x).getD 0 = (W0.get? x).getD 0
    rw [get_strings, h3, get_chars, String.ofList_toList]
    have hr : RealName U x.toList → ((W0.get? x).getD 0).im = 0 := by
      intro hR
      by_cases hn : x ∈ warsawNames
      · by_cases hn' : x ∈ warsawReal
        · exact o1 x hn'
        · exact absurd hR (complex_names hS hn hn')
      · show (W0.getD x 0).im = 0
        rw [o2 x hn hx]
        exact hC x (.inr hR)
    cases hz : W0.get? x with
    | none => rfl
    | some z =>
      rw [hz, Option.getD_some] at hr
      rw [Option.map_some, Option.filter_some]
      by_cases hR : RealName U x.toList
      · rw [if_pos hR, re_of_im (hr hR)]
        by_cases h0 : z = 0 <;> simp [h0]
      · rw [if_neg hR]
        by_cases h0 : z = 0 <;> simp [h0]
  refine ⟨strings d1, E, ?_, ?_, g3⟩
  · show (higgslikeToWarsawUp hb wb ckm defaults C parameters >>= _) = _
    rw [g1]
    show (warsawUpToWarsaw U ckm defaults (chars W0) parameters >>= _) = _
    rw [(up_eq hck hS _ (nodup_chars nW) (chars_names hw kW)).2, h1]
    rfl
  · show (warsawToWarsawUp U ckm defaults (chars (strings d1)) parameters >>= _) = _
    rw [ee, (up_eq hck hS _ n1 k1).1, h2]
    show warsawUpToHiggslike hb wb ckm defaults (strings d2) parameters = _
    rw [out_congr eqv, g2]

end

/-! ## The hypotheses are satisfiable -/

/-- the coefficients of the full Warsaw basis -/
def warsawBasis : List String := smeftUtil.allWcs.map String.ofList

/-- the same with the coefficients of the Higgs basis in place of those they replace -/
def higgsBasis : List String := (warsawBasis.filter fun x => decide (x ∉ warsawNames)) ++ higgsNames

theorem head_wcName {k : Str} {idx : List ℕ} (hk : '_' ∉ k) : (Util.splitUS (Util.wcName k idx)).headD [] = k := by
  unfold Util.wcName
  rw [Util.splitUS_append hk]; rfl

theorem head_names {k : Key} (hk : k ∈ keys) {n : Str} (h : n ∈ namesOf k) :
    (Util.splitUS n).headD [] = keyName k := by
  have hu := noUnderscore k hk
  unfold namesOf at h
  split_ifs at h
  · rw [List.mem_singleton.1 h, Util.splitUS_of_notMem hu]; rfl
  · obtain ⟨i, -, rfl⟩ := List.mem_map.1 h
    exact head_wcName hu
  · obtain ⟨i, -, rfl⟩ := List.mem_map.1 h
    exact head_wcName hu

theorem head_nonred {n : Str} {r : Prop} (h : NonRedName smeftUtil n r) :
    ∃ k ∈ keys, (Util.splitUS n).headD [] = keyName k := by
  cases h with
  | scalar h =>
    obtain ⟨k, hk, rfl, -⟩ := (smeft_shape _ _).1 h
    exact ⟨k, hk, by rw [Util.splitUS_of_notMem (noUnderscore k hk)]; rfl⟩
  | two h =>
    obtain ⟨k, hk, rfl, -⟩ := (smeft_shape _ _).1 h
    exact ⟨k, hk, head_wcName (noUnderscore k hk)⟩
  | four h =>
    obtain ⟨k, hk, rfl, -⟩ := (smeft_shape _ _).1 h
    exact ⟨k, hk, head_wcName (noUnderscore k hk)⟩

theorem coeff_sub {k : Key} (hk : k ∈ coeffKeys) : k ∈ keys := (List.mem_filter.1 hk).1

theorem nodup_names : smeftUtil.allWcs.Nodup := by
  show (coeffKeys.flatMap namesOf).Nodup
  rw [List.nodup_flatMap]
  have s2 : Util.Small [3, 3] := Util.small3 (by simp [Util.Le3])
  have s4 : Util.Small [3, 3, 3, 3] := Util.small3 (by simp [Util.Le3])
  refine ⟨fun k hk => ?_, ?_⟩
  · have hu := noUnderscore k (coeff_sub hk)
    unfold namesOf
    split_ifs
    · exact List.nodup_singleton _
    · have n2 : Reflect.all2I.Nodup := by decide
      refine List.Nodup.map (fun a b e => ?_) (n2.filter _)
      have i2 : ∀ i : I2, inRange [3, 3] (Util.idx2 i) = true := by decide
      have := (Util.wcName_inj hu hu (i2 a) (i2 b) s2 s2 e).2 rfl
      obtain ⟨a, a'⟩ := a; obtain ⟨b, b'⟩ := b
      simp only [Util.idx2, List.cons.injEq, Fin.val_inj, and_true] at this
      rw [this.1, this.2]
    · have n4 : Reflect.all4I.Nodup := by decide +kernel
      refine List.Nodup.map (fun a b e => ?_) (n4.filter _)
      have i4 : ∀ i : I4, inRange [3, 3, 3, 3] (Util.idx4 i) = true := by decide +kernel
      have := (Util.wcName_inj hu hu (i4 a) (i4 b) s4 s4 e).2 rfl
      obtain ⟨a1, a2, a3, a4⟩ := a
      obtain ⟨b1, b2, b3, b4⟩ := b
      simp only [Util.idx4, List.cons.injEq, Fin.val_inj, and_true] at this
      obtain ⟨rfl, rfl, rfl, rfl⟩ := this
      rfl
  · have : coeffKeys.Nodup := nodup_keys.filter _
    refine List.Pairwise.imp_of_mem ?_ this
    intro k k' hk hk' hne n hn hn'
    exact hne (keyName_inj ((head_names (coeff_sub hk) hn).symm.trans (head_names (coeff_sub hk') hn')))

/-- names of the coefficients of the Higgs basis without indices -/
def higgsHeads : List Str := (higgsSingle ++ ["deltagWlL", "deltagZeL", "deltagZeR", "deltagZuL", "deltagZdL",
  "deltagZuR", "deltagZdR", "deltagWqR"]).map String.toList

theorem higgs_not : ∀ x ∈ higgsNames, x ∉ warsawBasis := by
  intro x hx hm
  obtain ⟨n, hn, rfl⟩ := List.mem_map.1 hm
  obtain ⟨k, hk, h⟩ := List.mem_flatMap.1 hn
  have h1 : ∀ x ∈ higgsNames, (Util.splitUS x.toList).headD [] ∈ higgsHeads := by decide +kernel
  have h2 : ∀ n ∈ higgsHeads, ∀ k ∈ keys, n ≠ keyName k := by decide +kernel
  have := h1 _ hx
  rw [String.toList_ofList, head_names (coeff_sub hk) h] at this
  exact h2 _ this k (coeff_sub hk) rfl

theorem short_names {x : String} (hx : x ∈ warsawNames) : x.toList ∈ smeftUtil.allWcs := by
  have two : ∀ k ∈ keys2, ∀ i, NonRedOf2 (fullClass k) i →
      Util.wcName (keyName k) (Util.idx2 i) ∈ smeftUtil.allWcs := by
    intro k hk i hi
    obtain ⟨hk, h2⟩ := keys2_ok k hk
    refine List.mem_flatMap.2 ⟨k, hk, ?_⟩
    rw [namesOf, if_neg (by omega), if_pos h2]
    refine List.mem_map.2 ⟨i, List.mem_filter.2 ⟨?_, by simpa using hi⟩, rfl⟩
    clear hi
    revert i; decide
  rcases name_cases hx with ⟨k, hk, e⟩ | ⟨k, hk, i, hi, e⟩ | ⟨i, e⟩
  · obtain ⟨hk, h0⟩ := keys0_ok k hk
    rw [e]
    exact List.mem_flatMap.2 ⟨k, hk, by rw [namesOf, if_pos h0]; simp⟩
  · rw [e]
    exact two k (List.mem_of_mem_take hk) i (by rw [keys2_cls k hk]; exact upper_nonred i hi)
  · rw [e]
    exact two .phiud (by decide) i (by rw [phiud_cls]; exact nonred1 i)

theorem C97_bases_example : SmeftHiggs.Bases higgsBasis warsawBasis := by
  have inj : Function.Injective String.ofList := fun a b h => by
    rw [← String.toList_ofList (l := a), h, String.toList_ofList]
  have nw : warsawBasis.Nodup := nodup_names.map inj
  have nh : higgsNames.Nodup := C34_bases_example.nodup_h.of_cons.of_cons
  have hin : ∀ x ∈ warsawNames, x ∈ warsawBasis := by
    intro x hx
    rw [← String.ofList_toList (s := x)]
    exact List.mem_map.2 ⟨_, short_names hx, rfl⟩
  have dis : ∀ x ∈ warsawNames, x ∉ higgsNames := fun x hx h => higgs_not x h (hin x hx)
  have mh : ∀ x, x ∈ higgsBasis ↔ (x ∈ warsawBasis ∧ x ∉ warsawNames) ∨ x ∈ higgsNames := by
    intro x
    rw [higgsBasis, List.mem_append, List.mem_filter, decide_eq_true_eq]
  refine ⟨?_, nw, fun x hx => ⟨(mh x).2 (.inr hx), higgs_not x hx⟩, fun x hx => ⟨hin x hx, fun h => ?_⟩,
    fun x h1 h2 => ?_, ?_⟩
  · refine List.Nodup.append (nw.filter _) nh fun x hx hx' => ?_
    exact higgs_not x hx' (List.mem_filter.1 hx).1
  · rcases (mh x).1 h with h | h
    · exact h.2 hx
    · exact dis x hx h
  · rw [mh]
    exact ⟨fun h => h.elim (fun h => h.1) fun h => absurd h h1, fun h => .inl ⟨h, h2⟩⟩
  · refine (mh _).2 (.inl ⟨?_, ll_not.2⟩)
    exact List.mem_map.2 ⟨"ll_1221".toList, List.mem_flatMap.2 ⟨.ll, by decide +kernel,
      List.mem_map.2 ⟨(0, 1, 1, 0), by decide +kernel, by decide⟩⟩, by simp⟩

/-- a concrete non-trivial case: the full basis, the parameters of the package, a CKM matrix that mixes
generations and a doublet current -/
example : ∃ H E, warsawToHiggsUp smeftUtil higgsBasis warsawBasis (fun _ _ _ _ => mix) defaultParameters
      [("phiq1_12", Complex.I), ("ll_1221", 3)] none = .ok H ∧
    higgsUpToWarsaw smeftUtil higgsBasis warsawBasis (fun _ _ _ _ => mix) defaultParameters H none = .ok E ∧
    ∀ x, E.get? x = ((Dict.get? [("phiq1_12", Complex.I), ("ll_1221", 3)] x).map fun z =>
      if RealName smeftUtil x.toList then (z.re : ℂ) else z).filter (fun z => decide (z ≠ 0)) := by
  refine C97_warsaw_and_back smeft_isSmeft C97_bases_example rfl C34_parameters_example (fun _ _ _ _ => mix_unitary)
    _ (by simp [Dict.NodupKeys, Dict.keys]) ?_
  intro x hx
  simp only [Dict.keys, List.map_cons, List.map_nil, List.mem_cons, List.not_mem_nil, or_false] at hx
  rcases hx with rfl | rfl
  · exact (C97_bases_example.warsaw _ (by decide +kernel)).1
  · exact ll_w C97_bases_example

/-- and back from the Higgs basis -/
example : ∃ W E, higgsUpToWarsaw smeftUtil higgsBasis warsawBasis (fun _ _ _ _ => mix) defaultParameters
      [("deltagZdL_12", Complex.I), ("czz", 2)] none = .ok W ∧
    warsawToHiggsUp smeftUtil higgsBasis warsawBasis (fun _ _ _ _ => mix) defaultParameters W none = .ok E ∧
    ∀ x, E.get? x = if x ∈ higgsBasis then some (Dict.getD [("deltagZdL_12", Complex.I), ("czz", 2)] x 0)
      else none := by
  refine C97_higgs_and_back smeft_isSmeft C97_bases_example rfl C34_parameters_example (fun _ _ _ _ => mix_unitary)
    _ fun x hx => ?_
  have hne : x ≠ "deltagZdL_12" := by
    rintro rfl
    rcases hx with h | ⟨r, h, -⟩
    · exact absurd h (by decide +kernel)
    · obtain ⟨k, hk, e⟩ := head_nonred h
      have no : ∀ k ∈ keys, (Util.splitUS "deltagZdL_12".toList).headD [] ≠ keyName k := by decide +kernel
      exact no k hk e
  by_cases h2 : x = "czz"
  · subst h2; simp [Dict.getD, Dict.get?_cons]
  · simp [Dict.getD, Dict.get?_cons, Ne.symm hne, Ne.symm h2]

end Verif.TranslateInit
