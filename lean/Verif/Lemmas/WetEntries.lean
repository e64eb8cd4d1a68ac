import Verif.Lemmas.WetRelabel
import Verif.Lemmas.WetParity

/-!
# Single entries of the anomalous dimension matrices
-/

set_option autoImplicit false

namespace Verif.WetTab
open Verif Verif.Rotation Verif.WetRun

/-- the coefficient `a` has the value `z`, all others vanish -/
noncomputable def single (a : Coef) (z : ℂ) : Coef → ℂ := fun x => if x = a then z else 0

theorem single_self (a : Coef) (z : ℂ) : single a z a = z := if_pos rfl
theorem single_ne {a x : Coef} (h : x ≠ a) (z : ℂ) : single a z x = 0 := if_neg h

theorem rate_single {a : Coef} (ha : a ∈ allCoefs) (F : Force) (f : ℕ) (p : Par) (z : ℂ) (b : Coef) :
    rate F f p (single a z) b = z * mix F f p a b := by
  rw [rate_eq, Finset.sum_eq_single a]
  · rw [single_self]
  · intro x _ hx; rw [single_ne hx, zero_mul]
  · intro h; exact absurd (List.mem_toFinset.2 ha) h

theorem single_real (a : Coef) {z : ℂ} (h : z.im = 0) (x : Coef) : (single a z x).im = 0 := by
  unfold single; split
  · exact h
  · rfl

theorem sgn_real (n : Bool) : (sgn n).im = 0 := by cases n <;> simp [sgn]

theorem sgn_sq (n : Bool) : sgn n * sgn n = 1 := by cases n <;> simp [sgn]

/-- the image of a coefficient -/
theorem single_transformed {T : Sym} {a a' : Coef} {c n : Bool} {z : ℂ} (hz : z.im = 0 ∨ ¬IsReal a'.1 (ixOf a'))
    (ha : a ∈ allCoefs) (h : T a a' c n)
    (hfun : ∀ x' ∈ allCoefs, ∀ c' n', T a x' c' n' → x' = a' ∧ n' = n ∧ (c' = c ∨ IsReal a'.1 (ixOf a')))
    (hinj : ∀ x ∈ allCoefs, ∀ c' n', T x a' c' n' → x = a) :
    Transformed T (single a z) (single a' (sgn n * conjIf c z)) := by
  intro x hx x' hx' c' n' hT
  by_cases hxa : x = a
  · subst hxa
    obtain ⟨rfl, rfl, h3⟩ := hfun x' hx' c' n' hT
    rw [single_self, single_self]
    rcases h3 with rfl | h3
    · rfl
    · have hz : z.im = 0 := hz.resolve_right (not_not.2 h3)
      rw [conjIf_real hz, conjIf_real hz]
  · have : x' ≠ a' := by
      rintro rfl
      exact hxa (hinj x hx c' n' hT)
    rw [single_ne hxa, single_ne this]
    cases c' <;> simp [conjIf]

/-- an entry from the tables -/
theorem mix_of {F : Force} {f : ℕ} {p : Par} {a b : Coef} {s t : String} {i j n : ℕ} {S T : Sec}
    (ha : At a s i n S) (hb : At b t j n T) :
    mix F f p a b = value (S.rows F) f p.masses i j * (scale a p / scale b p : ℝ) :=
  (mix_iff (mem_allCoefs.2 ⟨_, _, ha.listed⟩) (mem_allCoefs.2 ⟨_, _, hb.listed⟩)).1
    ((mixing_same_iff ha hb).2 rfl)

theorem parity_fun {a a' b' : Coef} (ha' : a' ∈ allCoefs) (hb' : b' ∈ allCoefs)
    {c n c' n' : Bool} (h : paritySym a a' c n) (h' : paritySym a b' c' n') :
    a' = b' ∧ n = n' ∧ (c = c' ∨ IsReal a'.1 (ixOf a')) := by
  obtain ⟨k, ix, c0, n0, hp, hk, c1, n1, hs, rfl, rfl⟩ := h
  obtain ⟨k', ix', c0', n0', hp', hk', c1', n1', hs', rfl, rfl⟩ := h'
  rw [hp] at hp'
  obtain ⟨rfl, rfl, rfl, rfl⟩ : k = k' ∧ ix = ix' ∧ c0 = c0' ∧ n0 = n0' := by
    simpa using hp'
  obtain ⟨e1, e2, e3⟩ := same_fun ha' hb' hk hk' hs hs'
  exact ⟨e1, by rw [e2], e3.imp (fun e => by rw [e]) id⟩

theorem relabel_entry (σ : Relabel) {F : Force} {f : ℕ} {p p' : Par} (hm : NoMassless p)
    (hr : Relabelled σ p p') {a a' b b' : Coef} (ha : a ∈ allCoefs) (ha' : a' ∈ allCoefs)
    (hb : b ∈ allCoefs) (hb' : b' ∈ allCoefs) {c n c' n' : Bool} (h : σ.sym a a' c n)
    (h' : σ.sym b b' c' n') :
    mix F f p' a' b' = sgn n * sgn n' * conjIf c' (mix F f p a b) := by
  have ht : Transformed σ.sym (single a 1) (single a' (sgn n * conjIf c 1)) :=
    single_transformed (.inl rfl) ha h
      (fun x' hx' c' n' hx => by
        obtain ⟨rfl, rfl, h3⟩ := σ.sym_fun ha' hx' h hx
        exact ⟨rfl, rfl, h3.imp Eq.symm id⟩)
      (fun x hx c' n' hx' => σ.sym_inj hx ha hx' h)
  have hc : conjIf c (1 : ℂ) = 1 := conjIf_real rfl
  rw [hc, mul_one] at ht
  have := cov_real σ F f p p' _ _ hm hr (single_real a rfl) (fun x _ _ => single_real a rfl x) ht b hb b' hb' c' n' h'
  rw [rate_single ha', rate_single ha, one_mul] at this
  calc mix F f p' a' b' = sgn n * sgn n * mix F f p' a' b' := by rw [sgn_sq, one_mul]
    _ = sgn n * (sgn n * mix F f p' a' b') := by ring
    _ = _ := by rw [this]; ring

theorem parity_entry {F : Force} {f : ℕ} {p : Par} (hm : NoMassless p)
    {a a' b b' : Coef} (ha : a ∈ allCoefs) (ha' : a' ∈ allCoefs)
    (hb : b ∈ allCoefs) (hb' : b' ∈ allCoefs) {c n c' n' : Bool} (h : paritySym a a' c n)
    (h' : paritySym b b' c' n') :
    mix F f p a' b' = sgn n * sgn n' * conjIf c' (mix F f p a b) := by
  have ht : Transformed paritySym (single a 1) (single a' (sgn n * conjIf c 1)) :=
    single_transformed (.inl rfl) ha h
      (fun x' hx' c' n' hx => by
        obtain ⟨rfl, rfl, h3⟩ := parity_fun ha' hx' h hx
        exact ⟨rfl, rfl, h3.imp Eq.symm id⟩)
      (fun x hx c' n' hx' => parity_inj hx ha hx' h)
  have hc : conjIf c (1 : ℂ) = 1 := conjIf_real rfl
  rw [hc, mul_one] at ht
  have := parity_cov (F := F) (f := f) hm (fun x _ _ => single_real a rfl x)
    (fun x _ _ => single_real a' (sgn_real n) x) ht b hb b' hb' c' n' h'
  rw [rate_single ha', rate_single ha, one_mul] at this
  calc mix F f p a' b' = sgn n * sgn n * mix F f p a' b' := by rw [sgn_sq, one_mul]
    _ = sgn n * (sgn n * mix F f p a' b') := by ring
    _ = _ := by rw [this]; ring

end Verif.WetTab
