import Verif.Model.FlavorRotation
import Verif.Lemmas.Rotation
import Verif.Spec.Rotation

/-!
# Properties C27, C28 and C30: flavour rotations

C27 group action, C28 preservation of operator symmetries, C30 rotation to the down-quark
mass basis.
-/

set_option autoImplicit false

namespace Verif.RotationProps
open Verif Verif.Tens Verif.Beta Verif.Flavour Verif.Rotation Verif.Spec BigOperators

/-- the Standard Model parameters -/
def smParams : List Key := [.g, .gp, .gs, .Lambda, .m2, .Gu, .Gd, .Ge]

/-- `D` holds, for every coefficient in `P` that `C` holds, the array rotated by `U`, and
nothing for the coefficients in `P` that `C` does not hold -/
def RotatedBy (U : Fl → Mat) (P : Key → Prop) (C D : Dict Key Ten) : Prop :=
  ∀ k τ, P k → smeftTy k = some τ →
    (∀ A, C.get? k = some A → ∃ B, D.get? k = some B ∧
      ∀ ix : Ix, ix.length = τ.length → B ix = rot U τ A ix) ∧
    (C.get? k = none → D.get? k = none)

/-- `C` and `D` hold the same coefficients in `P`, with the same entries -/
def SameCoeffs (P : Key → Prop) (C D : Dict Key Ten) : Prop :=
  ∀ k τ, P k → smeftTy k = some τ →
    (∀ A, C.get? k = some A → ∃ B, D.get? k = some B ∧
      ∀ ix : Ix, ix.length = τ.length → B ix = A ix) ∧
    (C.get? k = none → D.get? k = none)

/-- argument of `flavor_rotation` belonging to a field -/
def argOf : Fl → Arg
  | .q => .q | .u => .u | .d => .d | .l => .l | .e => .e

/-- a statement rotates all indices of its coefficient by the right matrices -/
def Right (s : Stmt Key Arg) : Prop :=
  ∃ τ, smeftTy s.key = some τ ∧ HasTy s.rhs (τ.map fun t => some ⟨argOf t.f, t.bar⟩)

theorem right_eval (U : Fl → Mat) {s : Stmt Key Arg} (h : Right s) {τ : List (Ty Fl)}
    (hτ : smeftTy s.key = some τ) (A : Ten) (ix : Ix) (hix : ix.length = τ.length) :
    s.rhs.eval (args (U .q) (U .u) (U .d) (U .l) (U .e)) A ix = rot U τ A ix := by
  obtain ⟨τ', h1, h2⟩ := h
  rw [hτ, Option.some.injEq] at h1
  subst h1
  rw [hasTy_sound _ h2 A ix (by simpa using hix)]
  refine rotO_eq_rot _ U ?_ A ix
  rw [List.forall₂_map_left_iff, List.forall₂_same]
  rintro ⟨f, b⟩ _ j i
  cases f <;> rfl

macro "rights" : tactic => `(tactic| repeat' first
  | exact fun _ h => absurd h List.not_mem_nil
  | refine List.forall_mem_cons.2 ⟨?_, ?_⟩
  | exact ⟨_, rfl, .copy⟩
  | exact ⟨_, rfl, .sand rfl rfl⟩
  | exact ⟨_, rfl, .jlik rfl rfl rfl rfl⟩)

theorem right_prog : ∀ s ∈ flavorRotationProg, Right s := by
  unfold flavorRotationProg; rights

theorem right_sm : ∀ s ∈ smeftRotationSM, Right s := by
  unfold smeftRotationSM; rights

theorem right_wc : ∀ s ∈ smeftRotationWC, Right s := by
  unfold smeftRotationWC; rights

theorem guarded_prog : ∀ s ∈ flavorRotationProg, s.guarded = true := by decide
theorem nodup_prog : (flavorRotationProg.map Stmt.key).Nodup := by decide +kernel
theorem keys_prog : ∀ k ∈ keys, k ∉ smParams → ∃ s ∈ flavorRotationProg, s.key = k := by
  decide +kernel
theorem prog_keys : ∀ s ∈ flavorRotationProg, s.key ∉ smParams := by decide +kernel

theorem unguarded_wc : ∀ s ∈ smeftRotationWC, s.guarded = false := by decide
theorem unguarded_sm : ∀ s ∈ smeftRotationSM, s.guarded = false := by decide
theorem nodup_wc : (smeftRotationWC.map Stmt.key).Nodup := by decide +kernel
theorem nodup_sm : (smeftRotationSM.map Stmt.key).Nodup := by decide +kernel
theorem keys_wc : ∀ k ∈ keys, k ∉ smParams → ∃ s ∈ smeftRotationWC, s.key = k := by decide +kernel
theorem keys_sm : ∀ k ∈ smParams, ∃ s ∈ smeftRotationSM, s.key = k := by decide +kernel
theorem wc_keys : ∀ s ∈ smeftRotationWC, s.key ∈ keys ∧ s.key ∉ smParams := by decide +kernel
theorem sm_keys : ∀ s ∈ smeftRotationSM, s.key ∈ keys ∧ s.key ∈ smParams := by decide +kernel

theorem mem_keys {k : Key} {τ : List (Ty Fl)} (h : smeftTy k = some τ) : k ∈ keys := by
  revert h; cases k <;> simp [smeftTy, keys]

/-! ### C27 -/

/-- **C27 (each coefficient rotates by its field content).** `flavor_rotation` succeeds on
every dictionary; it rotates each index of each Wilson coefficient present by the matrix
of its field (conjugated for barred fields), adds no coefficient and returns no Standard
Model parameter. -/
theorem C27_rotates (U : Fl → Mat) (C : Dict Key Ten) :
    ∃ D, flavorRotation C (U .q) (U .u) (U .d) (U .l) (U .e) = .ok D ∧ D.NodupKeys ∧
      RotatedBy U (· ∉ smParams) C D ∧ ∀ k ∈ smParams, D.get? k = none := by
  obtain ⟨D, h1, h2, h3, h4⟩ := run_ok (args (U .q) (U .u) (U .d) (U .l) (U .e)) C
    flavorRotationProg nodup_prog (fun s hs => Or.inl (guarded_prog s hs)) []
  refine ⟨D, h1, h2 (by simp [Dict.NodupKeys, Dict.keys]), ?_, ?_⟩
  · intro k τ hk hτ
    obtain ⟨s, hs, rfl⟩ := keys_prog k (mem_keys hτ) hk
    refine ⟨fun A hA => ⟨_, h3 s hs A hA, fun ix hix => right_eval U (right_prog s hs) hτ A ix hix⟩,
      fun hn => ?_⟩
    rw [h4 _ (fun _ _ _ => hn)]; rfl
  · intro k hk
    rw [h4 k (fun s hs e => absurd hk (e ▸ prog_keys s hs))]; rfl

/-- **C27 (`SMEFT._flavor_rotation`).** For a complete set of parameters and coefficients,
the method of the `SMEFT` class rotates every one of them; the Standard Model parameters
are included exactly if `sm_parameters` is set. -/
theorem C27_method (U : Fl → Mat) (C : Dict Key Ten) (sm : Bool)
    (hC : ∀ k ∈ keys, (k ∈ smParams → sm = true) → k ∈ C.keys) :
    ∃ D, smeftFlavorRotation C (U .q) (U .u) (U .d) (U .l) (U .e) sm = .ok D ∧ D.NodupKeys ∧
      RotatedBy U (fun k => k ∈ smParams → sm = true) C D ∧
      (sm = false → ∀ k ∈ smParams, D.get? k = none) := by
  have key : ∀ C0 : Dict Key Ten, C0.NodupKeys →
      (∀ k, k ∉ smParams → C0.get? k = none) →
      (∀ k ∈ smParams, ∀ τ, smeftTy k = some τ → sm = true → ∀ A, C.get? k = some A →
        ∃ B, C0.get? k = some B ∧ ∀ ix : Ix, ix.length = τ.length → B ix = rot U τ A ix) →
      (sm = false → ∀ k, C0.get? k = none) →
      ∃ D, run (args (U .q) (U .u) (U .d) (U .l) (U .e)) C smeftRotationWC C0 = .ok D ∧
        D.NodupKeys ∧ RotatedBy U (fun k => k ∈ smParams → sm = true) C D ∧
        (sm = false → ∀ k ∈ smParams, D.get? k = none) := by
    intro C0 g1 g2 g3 g4
    obtain ⟨D, h1, h2, h3, h4⟩ := run_ok (args (U .q) (U .u) (U .d) (U .l) (U .e)) C
      smeftRotationWC nodup_wc
      (fun s hs => Or.inr (hC _ (wc_keys s hs).1 fun h => absurd h (wc_keys s hs).2)) C0
    refine ⟨D, h1, h2 g1, ?_, ?_⟩
    · intro k τ hk hτ
      have hmem := hC k (mem_keys hτ) hk
      have hnone : C.get? k = none → D.get? k = none := fun h =>
        absurd hmem ((Dict.get?_eq_none_iff _ _).1 h)
      refine ⟨fun A hA => ?_, hnone⟩
      by_cases hs : k ∈ smParams
      · obtain ⟨B, hB, hr⟩ := g3 k hs τ hτ (hk hs) A hA
        refine ⟨B, ?_, hr⟩
        rw [h4 k (fun s hs' e => absurd hs (e ▸ (wc_keys s hs').2)), hB]
      · obtain ⟨s, hs', rfl⟩ := keys_wc k (mem_keys hτ) hs
        exact ⟨_, h3 s hs' A hA, fun ix hix => right_eval U (right_wc s hs') hτ A ix hix⟩
    · intro hsm k hk
      rw [h4 k (fun s hs' e => absurd hk (e ▸ (wc_keys s hs').2))]
      exact g4 hsm k
  cases sm with
  | false =>
    simpa [smeftFlavorRotation] using key [] (by simp [Dict.NodupKeys, Dict.keys])
      (fun _ _ => rfl) (fun _ _ _ _ h => by simp at h) (fun _ _ => rfl)
  | true =>
    obtain ⟨C0, h1, h2, h3, h4⟩ := run_ok (args (U .q) (U .u) (U .d) (U .l) (U .e)) C
      smeftRotationSM nodup_sm
      (fun s hs => Or.inr (hC _ (sm_keys s hs).1 fun _ => rfl)) []
    obtain ⟨D, hD⟩ := key C0 (h2 (by simp [Dict.NodupKeys, Dict.keys]))
      (fun k hk => by rw [h4 k (fun s hs e => absurd (e ▸ (sm_keys s hs).2) hk)]; rfl)
      (fun k hk τ hτ _ A hA => by
        obtain ⟨s, hs', rfl⟩ := keys_sm k hk
        exact ⟨_, h3 s hs' A hA, fun ix hix => right_eval U (right_sm s hs') hτ A ix hix⟩)
      (fun h => by simp at h)
    refine ⟨D, ?_, hD.2⟩
    simp only [smeftFlavorRotation, if_true, h1]
    exact hD.1

/-- **C27 (missing input).** The method raises `KeyError` if a coefficient is missing. -/
theorem C27_method_missing (U : Fl → Mat) (C : Dict Key Ten) (sm : Bool) (k : Key) (hk : k ∈ keys)
    (hs : k ∉ smParams) (hm : k ∉ C.keys) :
    smeftFlavorRotation C (U .q) (U .u) (U .d) (U .l) (U .e) sm = .error .keyError := by
  obtain ⟨s, hs', rfl⟩ := keys_wc k hk hs
  have h := run_error (args (U .q) (U .u) (U .d) (U .l) (U .e)) C smeftRotationWC s hs'
    (unguarded_wc s hs') hm
  cases sm with
  | false => exact h []
  | true =>
    unfold smeftFlavorRotation
    cases hr : run (args (U .q) (U .u) (U .d) (U .l) (U .e)) C smeftRotationSM [] with
    | ok C0 => simp only [if_true]; exact h C0
    | error e =>
      have he : ∀ (prog : List (Stmt Key Arg)) (C0 : Dict Key Ten),
          run (args (U .q) (U .u) (U .d) (U .l) (U .e)) C prog C0 = .error e → e = .keyError := by
        intro prog
        induction prog with
        | nil => intro C0 h; cases h
        | cons s prog ih =>
          intro C0 h
          simp only [run, List.foldlM_cons, step] at h
          cases hA : C.get? s.key with
          | some A => rw [hA] at h; exact ih _ h
          | none =>
            rw [hA] at h
            by_cases hg : s.guarded = true
            · simp only [hg, if_true] at h; exact ih _ h
            · simp only [hg] at h
              cases h; rfl
      simp only [if_true]
      rw [he _ _ hr]
      rfl

/-- **C27 (identity).** Rotating by unit matrices changes nothing. -/
theorem C27_identity (C : Dict Key Ten) :
    ∃ D, flavorRotation C 1 1 1 1 1 = .ok D ∧ SameCoeffs (· ∉ smParams) C D := by
  obtain ⟨D, h1, _, h2, _⟩ := C27_rotates (fun _ => 1) C
  refine ⟨D, h1, fun k τ hk hτ => ⟨fun A hA => ?_, (h2 k τ hk hτ).2⟩⟩
  obtain ⟨B, hB, hr⟩ := (h2 k τ hk hτ).1 A hA
  exact ⟨B, hB, fun ix hix => by rw [hr ix hix, rot_one τ A ix hix]⟩

/-- **C27 (composition).** Rotating by `U` and then by `V` is rotating by `U V`, for
arbitrary matrices. -/
theorem C27_compose (U V : Fl → Mat) (C : Dict Key Ten) :
    ∃ D E E', flavorRotation C (U .q) (U .u) (U .d) (U .l) (U .e) = .ok D ∧
      flavorRotation D (V .q) (V .u) (V .d) (V .l) (V .e) = .ok E ∧
      flavorRotation C (U .q * V .q) (U .u * V .u) (U .d * V .d) (U .l * V .l) (U .e * V .e) = .ok E' ∧
      SameCoeffs (fun _ => True) E E' := by
  obtain ⟨D, h1, _, h2, h2'⟩ := C27_rotates U C
  obtain ⟨E, h3, _, h4, h4'⟩ := C27_rotates V D
  obtain ⟨E', h5, _, h6, h6'⟩ := C27_rotates (fun f => U f * V f) C
  refine ⟨D, E, E', h1, h3, h5, fun k τ _ hτ => ?_⟩
  by_cases hk : k ∈ smParams
  · exact ⟨fun A hA => (by rw [h4' k hk] at hA; cases hA), fun _ => h6' k hk⟩
  cases hC : C.get? k with
  | none =>
    refine ⟨fun A hA => ?_, fun _ => (h6 k τ hk hτ).2 hC⟩
    rw [(h4 k τ hk hτ).2 ((h2 k τ hk hτ).2 hC)] at hA; cases hA
  | some A =>
    obtain ⟨B, hB, r1⟩ := (h2 k τ hk hτ).1 A hC
    obtain ⟨B', hB', r2⟩ := (h4 k τ hk hτ).1 B hB
    obtain ⟨B'', hB'', r3⟩ := (h6 k τ hk hτ).1 A hC
    refine ⟨fun X hX => ⟨B'', hB'', fun ix hix => ?_⟩, fun hn => by rw [hn] at hB'; cases hB'⟩
    rw [hB', Option.some.injEq] at hX
    subst hX
    rw [r3 ix hix, r2 ix hix, ← rot_rot]
    exact (rot_congr V τ _ _ ix (fun j hj => r1 j hj)).symm

/-- **C27 (inverse).** For unitary `U`, rotating by `U` and then by `U†` returns all
Wilson coefficients. -/
theorem C27_inverse (U : Fl → Mat) (hU : ∀ f, U f ∈ Matrix.unitaryGroup (Fin 3) ℂ)
    (C : Dict Key Ten) :
    ∃ D E, flavorRotation C (U .q) (U .u) (U .d) (U .l) (U .e) = .ok D ∧
      flavorRotation D (U .q).conjTranspose (U .u).conjTranspose (U .d).conjTranspose
        (U .l).conjTranspose (U .e).conjTranspose = .ok E ∧
      SameCoeffs (· ∉ smParams) C E := by
  obtain ⟨D, h1, _, h2, _⟩ := C27_rotates U C
  obtain ⟨E, h3, _, h4, _⟩ := C27_rotates (fun f => (U f).conjTranspose) D
  refine ⟨D, E, h1, h3, fun k τ hk hτ => ⟨fun A hA => ?_, fun hn => ?_⟩⟩
  · obtain ⟨B, hB, r1⟩ := (h2 k τ hk hτ).1 A hA
    obtain ⟨B', hB', r2⟩ := (h4 k τ hk hτ).1 B hB
    refine ⟨B', hB', fun ix hix => ?_⟩
    rw [r2 ix hix, rot_congr _ τ B (rot U τ A) ix (fun j hj => r1 j hj), rot_rot]
    have : (fun f => U f * (U f).conjTranspose) = fun _ => (1 : Mat) := by
      funext f
      exact Matrix.mem_unitaryGroup_iff.1 (hU f)
    rw [this, rot_one τ A ix hix]
  · exact (h4 k τ hk hτ).2 ((h2 k τ hk hτ).2 hn)

/-- a concrete non-trivial case: rotating the coefficient `phiq1` by the permutation of the
first two generations moves its entry 11 to 22, and is undone by the inverse -/
example : ∃ D E, flavorRotation [(Key.phiq1, fun | [0, 0] => 1 | _ => 0)]
      !![0, 1, 0; 1, 0, 0; 0, 0, 1] 1 1 1 1 = .ok D ∧
    flavorRotation D !![0, 1, 0; 1, 0, 0; 0, 0, 1] 1 1 1 1 = .ok E ∧
    (∃ A, D.get? .phiq1 = some A ∧ A [1, 1] = 1 ∧ A [0, 0] = 0) ∧
    (∃ A, E.get? .phiq1 = some A ∧ A [0, 0] = 1) := by
  let U : Fl → Mat := fun f => if f = .q then !![0, 1, 0; 1, 0, 0; 0, 0, 1] else 1
  obtain ⟨D, h1, _, h2, _⟩ := C27_rotates U [(Key.phiq1, fun | [0, 0] => 1 | _ => 0)]
  obtain ⟨E, h3, _, h4, _⟩ := C27_rotates U D
  have e1 : D.get? .phiq1 = some _ := ((h2 .phiq1 _ (by decide) rfl).1 _ rfl).choose_spec.1
  have s1 := ((h2 .phiq1 _ (by decide) rfl).1 _ rfl).choose_spec.2
  have e2 : E.get? .phiq1 = some _ := ((h4 .phiq1 _ (by decide) rfl).1 _ e1).choose_spec.1
  have s2 := ((h4 .phiq1 _ (by decide) rfl).1 _ e1).choose_spec.2
  refine ⟨D, E, h1, h3, ⟨_, e1, ?_, ?_⟩, ⟨_, e2, ?_⟩⟩
  · rw [s1 _ rfl]
    simp [rot, fac, U, Fin.sum_univ_three]
  · rw [s1 _ rfl]
    simp [rot, fac, U, Fin.sum_univ_three]
  · rw [s2 _ rfl, rot_congr _ _ _ _ _ (fun j hj => s1 j hj)]
    simp [rot, fac, U, Fin.sum_univ_three]

/-! ### C28 -/

theorem herm2 (U : Fl → Mat) (f : Fl) (A : Ten) (h : ∀ i j, A [j, i] = (starRingEnd ℂ) (A [i, j]))
    (a b : Fin 3) : rot U [f.b, f.x] A [b, a] = (starRingEnd ℂ) (rot U [f.b, f.x] A [a, b]) :=
  rot_herm2 U f.x A h a b

theorem herm4 (U : Fl → Mat) (f g : Fl) (A : Ten)
    (h : ∀ i j k l, A [j, i, l, k] = (starRingEnd ℂ) (A [i, j, k, l])) (a b c d : Fin 3) :
    rot U [f.b, f.x, g.b, g.x] A [b, a, d, c] =
      (starRingEnd ℂ) (rot U [f.b, f.x, g.b, g.x] A [a, b, c, d]) :=
  rot_herm U f.x g.x A h a b c d

/-- **C28.** Flavour rotation by arbitrary matrices preserves the symmetry relations of
every Wilson coefficient: if the arrays in `C` satisfy the relations of their classes, so
do the rotated arrays. -/
theorem C28_symmetric (U : Fl → Mat) (C : Dict Key Ten)
    (hC : ∀ k A, C.get? k = some A → ObeysClass (smeftClass k) A) :
    ∃ D, flavorRotation C (U .q) (U .u) (U .d) (U .l) (U .e) = .ok D ∧
      ∀ k A, D.get? k = some A → ObeysClass (smeftClass k) A := by
  obtain ⟨D, h1, _, h2, h3⟩ := C27_rotates U C
  refine ⟨D, h1, fun k A hA => ?_⟩
  by_cases hcl : smeftClass k = 0
  · rw [hcl]; simp [ObeysClass]
  have hk : k ∉ smParams := by
    intro h; apply hcl; revert h; cases k <;> simp [smParams, smeftClass]
  have hτ : ∃ τ, smeftTy k = some τ := by
    revert hcl; cases k <;> simp [smeftClass, smeftTy]
  obtain ⟨τ, hτ⟩ := hτ
  cases hCk : C.get? k with
  | none => rw [(h2 k τ hk hτ).2 hCk] at hA; cases hA
  | some A0 =>
    obtain ⟨B, hB, r⟩ := (h2 k τ hk hτ).1 A0 hCk
    rw [hA, Option.some.injEq] at hB
    subst hB
    have hs := hC k A0 hCk
    revert hs hcl r
    cases k <;> simp only [smeftClass, not_true_eq_false, IsEmpty.forall_iff] <;>
      simp only [smeftTy, Option.some.injEq] at hτ <;> subst hτ <;> intro _ r hs <;>
      simp only [ObeysClass, IsClass2, IsClass9, IsClass4, IsClass5, IsClass6, IsClass7, IsClass8,
        IsClass41, IsClass71, true_imp_iff, Nat.reduceEqDiff, false_imp_iff,
        true_and, and_true] at hs ⊢
    all_goals first
      | exact fun a b => by
          rw [r _ rfl, r _ rfl]; exact herm2 U _ A0 hs a b
      | exact fun a b => by
          rw [r _ rfl, r _ rfl]; exact rot_symm2 U _ A0 hs a b
      | exact fun a b c d => by
          rw [r _ rfl, r _ rfl]; exact herm4 U _ _ A0 hs a b c d
      | exact fun a b c d => by
          rw [r _ rfl, r _ rfl, r _ rfl]
          exact ⟨rot_current U _ _ A0 (fun i j k l => (hs i j k l).1) a b c d,
            herm4 U _ _ A0 (fun i j k l => (hs i j k l).2) a b c d⟩
      | exact fun a b c d => by
          rw [r _ rfl, r _ rfl, r _ rfl, r _ rfl]
          exact ⟨rot_current U _ _ A0 (fun i j k l => (hs i j k l).1) a b c d,
            herm4 U _ _ A0 (fun i j k l => (hs i j k l).2.1) a b c d,
            rot_fierz U _ _ A0 (fun i j k l => (hs i j k l).2.2) a b c d⟩
      | exact fun a b c d => by
          rw [r _ rfl, r _ rfl]
          simpa using rot_12 U _ _ _ A0 1 (by simpa using hs) a b c d
      | exact fun a b c d => by
          rw [r _ rfl, r _ rfl, r _ rfl, r _ rfl]
          exact rot_class8 U _ _ A0 hs a b c d

/-! ### C30 -/

/-- a statement of `rotate_down` rotates exactly the left-handed down-quark indices -/
def RightW (V : Mat) (s : Stmt WKey Arg1) : Prop :=
  ∃ σ, HasTy s.rhs σ ∧ List.Forall₂ (Agrees (fun _ => V) (downOnly V)) σ (wetTy s.key)

theorem agrees_dL (V : Mat) (b : Bool) : Agrees (fun _ : Arg1 => V) (downOnly V)
    (some ⟨.UdL, b⟩) ⟨.dL, b⟩ := fun _ _ => rfl

theorem right_wet (V : Mat) : ∀ s ∈ rotateDownProg, RightW V s := by
  unfold rotateDownProg
  repeat' first
  | exact fun _ h => absurd h List.not_mem_nil
  | refine List.forall_mem_cons.2 ⟨?_, ?_⟩
  | refine ⟨_, .ijkl rfl rfl rfl rfl, ?_⟩
  | refine ⟨_, .i2 rfl, ?_⟩
  | refine ⟨_, .kl rfl rfl, ?_⟩
  | refine ⟨_, .ij rfl rfl, ?_⟩
  | refine ⟨_, .ik rfl rfl, ?_⟩
  | refine ⟨_, .jk rfl rfl, ?_⟩
  | refine ⟨_, .i rfl, ?_⟩
  | refine ⟨_, .j rfl, ?_⟩
  | refine ⟨_, .k rfl, ?_⟩
  | refine ⟨_, .l rfl, ?_⟩
  | exact .nil
  | refine .cons (agrees_dL V _) ?_
  | refine .cons rfl ?_

theorem nodup_wet : (rotateDownProg.map Stmt.key).Nodup := by decide +kernel
theorem other_wet : ∀ k ∈ WKey.all, (∃ s ∈ rotateDownProg, s.key = k) ∨
    ∀ t ∈ wetTy k, t.f ≠ .dL := by decide +kernel
theorem prog_dL : ∀ s ∈ rotateDownProg, ∃ t ∈ wetTy s.key, t.f = .dL := by decide +kernel
theorem unguarded_wet : ∀ s ∈ rotateDownProg, s.guarded = false := by decide +kernel
theorem wkey_all (k : WKey) : k ∈ WKey.all := by cases k <;> decide

theorem rot_untouched (V : Mat) (τ : List (Ty WFl)) (h : ∀ t ∈ τ, t.f ≠ .dL) (A : Ten) (ix : Ix)
    (hix : ix.length = τ.length) : rot (downOnly V) τ A ix = A ix := by
  have : ∀ (τ : List (Ty WFl)) (A : Ten) (ix : Ix), (∀ t ∈ τ, t.f ≠ .dL) →
      rot (downOnly V) τ A ix = rot (fun _ => 1) τ A ix := by
    intro τ
    induction τ with
    | nil => intro _ _ _; rfl
    | cons t τ ih =>
      intro A ix h
      cases ix with
      | nil => rfl
      | cons i is =>
        simp only [rot]
        refine Finset.sum_congr rfl fun j _ => ?_
        rw [ih _ _ (fun t ht => h t (List.mem_cons_of_mem _ ht))]
        have ht := h t (by simp)
        rcases t with ⟨f, b⟩
        cases f <;> first | rfl | exact absurd rfl ht
  rw [this τ A ix h, rot_one τ A ix hix]

/-- **C30 (rotation).** If all coefficients with a left-handed down-quark index are
present, `rotate_down` succeeds, keeps all coefficients, and rotates each index belonging
to a left-handed down quark (and only these) by `V`, conjugated for barred fields. -/
theorem C30_rotates (V : Mat) (C : Dict WKey Ten) (hn : C.NodupKeys)
    (hC : ∀ k, (∃ t ∈ wetTy k, t.f = .dL) → k ∈ C.keys) :
    ∃ D, rotateDown C V = .ok D ∧ D.NodupKeys ∧ ∀ k,
      (C.get? k = none → D.get? k = none) ∧
      ∀ A, C.get? k = some A → ∃ B, D.get? k = some B ∧
        ∀ ix : Ix, ix.length = (wetTy k).length → B ix = rot (downOnly V) (wetTy k) A ix := by
  have hmem : ∀ s ∈ rotateDownProg, s.key ∈ C.keys := by
    intro s hs
    exact hC _ (prog_dL s hs)
  obtain ⟨D, h1, h2, h3, h4⟩ := run_ok (fun _ => V) C rotateDownProg nodup_wet
    (fun s hs => Or.inr (hmem s hs)) C
  refine ⟨D, h1, h2 hn, fun k => ⟨fun h => ?_, fun A hA => ?_⟩⟩
  · rw [h4 k (fun _ _ _ => h), h]
  · rcases other_wet k (wkey_all k) with ⟨s, hs, rfl⟩ | ho
    · refine ⟨_, h3 s hs A hA, fun ix hix => ?_⟩
      obtain ⟨σ, g1, g2⟩ := right_wet V s hs
      rw [hasTy_sound _ g1 A ix (by rw [hix, g2.length_eq]), rotO_eq_rot _ _ g2]
    · refine ⟨A, ?_, fun ix hix => (rot_untouched V _ ho A ix hix).symm⟩
      rw [h4 k, hA]
      intro s hs e
      subst e
      obtain ⟨t, ht, h⟩ := prog_dL s hs
      exact absurd h (ho t ht)

/-- **C30 (other coefficients).** A coefficient without left-handed down-quark index is
left as it is. -/
theorem C30_untouched (V : Mat) (C D : Dict WKey Ten) (h : rotateDown C V = .ok D) (k : WKey)
    (hk : ∀ t ∈ wetTy k, t.f ≠ .dL) : D.get? k = C.get? k := by
  have : ∀ (prog : List (Stmt WKey Arg1)) (C0 : Dict WKey Ten), (∀ s ∈ prog, s.key ≠ k) →
      run (fun _ => V) C prog C0 = .ok D → D.get? k = C0.get? k := by
    intro prog
    induction prog with
    | nil => intro C0 _ h; cases h; rfl
    | cons s prog ih =>
      intro C0 hs h
      simp only [run, List.foldlM_cons, step] at h
      cases hA : C.get? s.key with
      | some A =>
        rw [hA] at h
        rw [ih _ (fun s' h' => hs s' (List.mem_cons_of_mem _ h')) h,
          Dict.get?_set_ne _ _ (hs s (by simp))]
      | none =>
        rw [hA] at h
        by_cases hg : s.guarded = true
        · simp only [hg, if_true] at h
          exact ih _ (fun s' h' => hs s' (List.mem_cons_of_mem _ h')) h
        · simp only [hg] at h; cases h
  refine this rotateDownProg C ?_ h
  intro s hs e
  subst e
  obtain ⟨t, ht, h⟩ := prog_dL s hs
  exact absurd h (hk t ht)

/-- **C30 (missing input).** `rotate_down` raises `KeyError` if a coefficient with a
left-handed down-quark index is missing. -/
theorem C30_missing (V : Mat) (C : Dict WKey Ten) (k : WKey) (hk : ∃ t ∈ wetTy k, t.f = .dL)
    (hm : k ∉ C.keys) : rotateDown C V = .error .keyError := by
  rcases other_wet k (wkey_all k) with ⟨s, hs, rfl⟩ | ho
  · exact run_error _ C rotateDownProg s hs (unguarded_wet s hs) hm C
  · obtain ⟨t, ht, h⟩ := hk
    exact absurd h (ho t ht)

/-- **C30 (inverse).** For a unitary matrix `V`, rotating by `V` and then by `V†` returns
all coefficients. -/
theorem C30_inverse (V : Mat) (hV : V ∈ Matrix.unitaryGroup (Fin 3) ℂ) (C : Dict WKey Ten)
    (hn : C.NodupKeys) (hC : ∀ k, (∃ t ∈ wetTy k, t.f = .dL) → k ∈ C.keys) :
    ∃ D E, rotateDown C V = .ok D ∧ rotateDown D V.conjTranspose = .ok E ∧ ∀ k,
      (C.get? k = none → E.get? k = none) ∧
      ∀ A, C.get? k = some A → ∃ B, E.get? k = some B ∧
        ∀ ix : Ix, ix.length = (wetTy k).length → B ix = A ix := by
  obtain ⟨D, h1, h2, h3⟩ := C30_rotates V C hn hC
  have hD : ∀ k, (∃ t ∈ wetTy k, t.f = .dL) → k ∈ D.keys := by
    intro k hk
    have hk' := hC k hk
    rw [← Dict.isSome_get?_iff] at hk' ⊢
    obtain ⟨A, hA⟩ := Option.isSome_iff_exists.1 hk'
    obtain ⟨B, hB, _⟩ := (h3 k).2 A hA
    rw [hB]; rfl
  obtain ⟨E, h4, _, h6⟩ := C30_rotates V.conjTranspose D h2 hD
  refine ⟨D, E, h1, h4, fun k => ⟨fun h => (h6 k).1 ((h3 k).1 h), fun A hA => ?_⟩⟩
  obtain ⟨B, hB, r1⟩ := (h3 k).2 A hA
  obtain ⟨B', hB', r2⟩ := (h6 k).2 B hB
  refine ⟨B', hB', fun ix hix => ?_⟩
  rw [r2 ix hix, rot_congr _ _ B _ ix (fun j hj => r1 j hj), rot_rot]
  have : (fun f => downOnly V f * downOnly V.conjTranspose f) = fun _ => (1 : Mat) := by
    funext f
    cases f <;> simp [downOnly]
    exact Matrix.mem_unitaryGroup_iff.1 hV
  rw [this, rot_one _ A ix hix]

/-- the hypotheses are met by a complete set of coefficients -/
example : ∃ C : Dict WKey Ten, C.NodupKeys ∧ ∀ k, k ∈ C.keys :=
  ⟨WKey.all.map fun k => (k, fun _ => 1), by
    have : WKey.all.Nodup := by decide +kernel
    simpa [Dict.NodupKeys, Dict.keys, Function.comp_def] using this,
    fun k => by simpa [Dict.keys, Function.comp_def] using wkey_all k⟩

/-- `rotate_down` is not trivial: it moves the entry of `dG` -/
example : ∃ ix, rot (downOnly !![0, 1, 0; 1, 0, 0; 0, 0, 1]) (wetTy .dG)
    (fun | [0, 2] => Complex.I | _ => 0) ix = Complex.I ∧ ix = [1, 2] :=
  ⟨_, by simp [rot, wetTy, fac, downOnly, Fin.sum_univ_three], rfl⟩

end Verif.RotationProps
