import Verif.Model.Rotation
import Verif.Lemmas.Covariance
import Verif.Model.ArrayProg
import Mathlib.Tactic.Ring

/-!
# Lemmas: flavour rotations

* explicit-mode `einsum` with the index strings that occur;
* `rot` as a group action, and its behaviour under permutations of indices.
-/

set_option autoImplicit false

namespace Verif.Rotation
open Verif Verif.Tens Verif.Flavour BigOperators

variable {F G : Type}

/-- an assignment of the eight letters -/
def asg (a b c d i j k l : Fin 3) : Lb → Fin 3
  | .a => a | .b => b | .c => c | .d => d | .i => i | .j => j | .k => k | .l => l

theorem asg_eta (σ : Lb → Fin 3) :
    asg (σ .a) (σ .b) (σ .c) (σ .d) (σ .i) (σ .j) (σ .k) (σ .l) = σ := by
  funext x; cases x <;> rfl

theorem lb_beq (x y : Lb) : (x == y) = decide (x = y) := by
  cases x <;> cases y <;> rfl

theorem sum8 (D : Lb → Finset (Fin 3)) (f : (Lb → Fin 3) → ℂ) :
    ∑ σ ∈ Fintype.piFinset D, f σ =
      ∑ a ∈ D .a, ∑ b ∈ D .b, ∑ c ∈ D .c, ∑ d ∈ D .d, ∑ i ∈ D .i, ∑ j ∈ D .j, ∑ k ∈ D .k,
        ∑ l ∈ D .l, f (asg a b c d i j k l) := by
  simp only [Finset.sum_sigma']
  refine Finset.sum_bij'
    (fun σ _ => ⟨σ .a, σ .b, σ .c, σ .d, σ .i, σ .j, σ .k, σ .l⟩)
    (fun x _ => asg x.1 x.2.1 x.2.2.1 x.2.2.2.1 x.2.2.2.2.1 x.2.2.2.2.2.1 x.2.2.2.2.2.2.1
      x.2.2.2.2.2.2.2) ?_ ?_ ?_ ?_ ?_
  · intro σ h
    rw [Fintype.mem_piFinset] at h
    simp [h]
  · rintro ⟨a, b, c, d, i, j, k, l⟩ h
    simp only [Finset.mem_sigma] at h
    rw [Fintype.mem_piFinset]
    intro x
    cases x <;> simp [asg, h]
  · intro σ _
    exact asg_eta σ
  · rintro ⟨a, b, c, d, i, j, k, l⟩ _
    rfl
  · intro σ _
    rw [asg_eta]

/-- rotation of some of the indices (`none`: left alone) -/
noncomputable def rotO (U : F → Matrix (Fin 3) (Fin 3) ℂ) : List (Option (Ty F)) → Ten → Ten
  | [], A => fun _ => A []
  | t :: τ, A => fun ix => match ix with
    | i :: is => match t with
      | some t => ∑ j, fac U t j i * rotO U τ (fun js => A (j :: js)) is
      | none => rotO U τ (fun js => A (i :: js)) is
    | [] => 0

/-- matrix argument rotating an index of type `t` -/
def mTy : M F → Option (Ty F)
  | .U f => some ⟨f, false⟩
  | .conj (.U f) => some ⟨f, true⟩
  | _ => none

theorem mTy_sound {U : F → Matrix (Fin 3) (Fin 3) ℂ} {m : M F} {t : Ty F} (h : mTy m = some t)
    (i j : Fin 3) : m.eval U i j = fac U t i j := by
  cases m with
  | U f => simp only [mTy, Option.some.injEq] at h; subst h; simp [fac, M.eval]
  | conj m =>
    cases m with
    | U f => simp only [mTy, Option.some.injEq] at h; subst h; simp [fac, M.eval]
    | conj m => simp [mTy] at h
    | tr m => simp [mTy] at h
  | tr m => simp [mTy] at h

/-- right-hand sides that rotate indices, with the types of the rotated indices -/
inductive HasTy : RE F → List (Option (Ty F)) → Prop
  | copy : HasTy .copy []
  | sand {x y : M F} {s t : Ty F} (hx : mTy x = some s) (hy : mTy y = some t) :
      HasTy (.sand (.tr x) y) [some s, some t]
  | jlik {m1 m2 m3 m4 : M F} {t1 t2 t3 t4 : Ty F} (h1 : mTy m1 = some t1) (h2 : mTy m2 = some t2)
      (h3 : mTy m3 = some t3) (h4 : mTy m4 = some t4) :
      HasTy (.ein [([.j, .b], m1), ([.l, .d], m2), ([.i, .a], m3), ([.k, .c], m4)]
        [.i, .j, .k, .l] [.a, .b, .c, .d]) [some t3, some t1, some t4, some t2]
  | ijkl {m1 m2 m3 m4 : M F} {t1 t2 t3 t4 : Ty F} (h1 : mTy m1 = some t1) (h2 : mTy m2 = some t2)
      (h3 : mTy m3 = some t3) (h4 : mTy m4 = some t4) :
      HasTy (.ein [([.i, .a], m1), ([.j, .b], m2), ([.k, .c], m3), ([.l, .d], m4)]
        [.i, .j, .k, .l] [.a, .b, .c, .d]) [some t1, some t2, some t3, some t4]
  | i2 {m1 : M F} {t1 : Ty F} (h1 : mTy m1 = some t1) :
      HasTy (.ein [([.i, .a], m1)] [.i, .j] [.a, .j]) [some t1, none]
  | kl {m1 m2 : M F} {t1 t2 : Ty F} (h1 : mTy m1 = some t1) (h2 : mTy m2 = some t2) :
      HasTy (.ein [([.k, .c], m1), ([.l, .d], m2)] [.i, .j, .k, .l] [.i, .j, .c, .d])
        [none, none, some t1, some t2]
  | ij {m1 m2 : M F} {t1 t2 : Ty F} (h1 : mTy m1 = some t1) (h2 : mTy m2 = some t2) :
      HasTy (.ein [([.i, .a], m1), ([.j, .b], m2)] [.i, .j, .k, .l] [.a, .b, .k, .l])
        [some t1, some t2, none, none]
  | ik {m1 m2 : M F} {t1 t2 : Ty F} (h1 : mTy m1 = some t1) (h2 : mTy m2 = some t2) :
      HasTy (.ein [([.i, .a], m1), ([.k, .c], m2)] [.i, .j, .k, .l] [.a, .j, .c, .l])
        [some t1, none, some t2, none]
  | jk {m1 m2 : M F} {t1 t2 : Ty F} (h1 : mTy m1 = some t1) (h2 : mTy m2 = some t2) :
      HasTy (.ein [([.j, .b], m1), ([.k, .c], m2)] [.i, .j, .k, .l] [.i, .b, .c, .l])
        [none, some t1, some t2, none]
  | i {m1 : M F} {t1 : Ty F} (h1 : mTy m1 = some t1) :
      HasTy (.ein [([.i, .a], m1)] [.i, .j, .k, .l] [.a, .j, .k, .l]) [some t1, none, none, none]
  | j {m1 : M F} {t1 : Ty F} (h1 : mTy m1 = some t1) :
      HasTy (.ein [([.j, .b], m1)] [.i, .j, .k, .l] [.i, .b, .k, .l]) [none, some t1, none, none]
  | k {m1 : M F} {t1 : Ty F} (h1 : mTy m1 = some t1) :
      HasTy (.ein [([.k, .c], m1)] [.i, .j, .k, .l] [.i, .j, .c, .l]) [none, none, some t1, none]
  | l {m1 : M F} {t1 : Ty F} (h1 : mTy m1 = some t1) :
      HasTy (.ein [([.l, .d], m1)] [.i, .j, .k, .l] [.i, .j, .k, .d]) [none, none, none, some t1]

theorem len4 {α : Type} {x : List α} (h : x.length = 4) : ∃ a b c d, x = [a, b, c, d] := by
  match x, h with
  | [a, b, c, d], _ => exact ⟨a, b, c, d, rfl⟩

theorem len2 {α : Type} {x : List α} (h : x.length = 2) : ∃ a b, x = [a, b] := by
  match x, h with
  | [a, b], _ => exact ⟨a, b, rfl⟩

theorem hasTy_sound (U : F → Matrix (Fin 3) (Fin 3) ℂ) {r : RE F} {τ : List (Option (Ty F))}
    (h : HasTy r τ) (A : Ten) (ix : Ix) (hix : ix.length = τ.length) :
    r.eval U A ix = rotO U τ A ix := by
  cases h with
  | copy =>
    have : ix = [] := List.length_eq_zero_iff.1 hix
    subst this; rfl
  | @sand x y s t hx hy =>
    obtain ⟨a, b, rfl⟩ := len2 hix
    simp only [RE.eval, matT, ofMat, M.eval, Matrix.transpose_apply, rotO, mTy_sound hx,
      mTy_sound hy, Finset.sum_mul, Finset.mul_sum]
    rw [Finset.sum_comm]
    refine Finset.sum_congr rfl fun i _ => Finset.sum_congr rfl fun j _ => ?_
    ring
  | i2 h1 =>
    obtain ⟨a, b, rfl⟩ := len2 hix
    simp [RE.eval, einX, sum8, dom, asg, ofMat, rotO, mTy_sound h1, List.idxOf, List.findIdx_cons, lb_beq]
  | jlik h1 h2 h3 h4 =>
    obtain ⟨a, b, c, d, rfl⟩ := len4 hix
    simp [RE.eval, einX, sum8, dom, asg, ofMat, rotO, mTy_sound h1, mTy_sound h2, mTy_sound h3,
      mTy_sound h4, List.idxOf, List.findIdx_cons, lb_beq, Finset.mul_sum]
    refine Finset.sum_congr rfl fun i _ => Finset.sum_congr rfl fun j _ =>
      Finset.sum_congr rfl fun k _ => Finset.sum_congr rfl fun l _ => ?_
    ring
  | ijkl h1 h2 h3 h4 =>
    obtain ⟨a, b, c, d, rfl⟩ := len4 hix
    simp [RE.eval, einX, sum8, dom, asg, ofMat, rotO, mTy_sound h1, mTy_sound h2, mTy_sound h3,
      mTy_sound h4, List.idxOf, List.findIdx_cons, lb_beq, Finset.mul_sum]
  | kl h1 h2 =>
    obtain ⟨a, b, c, d, rfl⟩ := len4 hix
    simp [RE.eval, einX, sum8, dom, asg, ofMat, rotO, mTy_sound h1, mTy_sound h2,
      List.idxOf, List.findIdx_cons, lb_beq, Finset.mul_sum]
  | ij h1 h2 =>
    obtain ⟨a, b, c, d, rfl⟩ := len4 hix
    simp [RE.eval, einX, sum8, dom, asg, ofMat, rotO, mTy_sound h1, mTy_sound h2,
      List.idxOf, List.findIdx_cons, lb_beq, Finset.mul_sum]
  | ik h1 h2 =>
    obtain ⟨a, b, c, d, rfl⟩ := len4 hix
    simp [RE.eval, einX, sum8, dom, asg, ofMat, rotO, mTy_sound h1, mTy_sound h2,
      List.idxOf, List.findIdx_cons, lb_beq, Finset.mul_sum]
  | jk h1 h2 =>
    obtain ⟨a, b, c, d, rfl⟩ := len4 hix
    simp [RE.eval, einX, sum8, dom, asg, ofMat, rotO, mTy_sound h1, mTy_sound h2,
      List.idxOf, List.findIdx_cons, lb_beq, Finset.mul_sum]
  | i h1 =>
    obtain ⟨a, b, c, d, rfl⟩ := len4 hix
    simp [RE.eval, einX, sum8, dom, asg, ofMat, rotO, mTy_sound h1, List.idxOf, List.findIdx_cons, lb_beq]
  | j h1 =>
    obtain ⟨a, b, c, d, rfl⟩ := len4 hix
    simp [RE.eval, einX, sum8, dom, asg, ofMat, rotO, mTy_sound h1, List.idxOf, List.findIdx_cons, lb_beq]
  | k h1 =>
    obtain ⟨a, b, c, d, rfl⟩ := len4 hix
    simp [RE.eval, einX, sum8, dom, asg, ofMat, rotO, mTy_sound h1, List.idxOf, List.findIdx_cons, lb_beq]
  | l h1 =>
    obtain ⟨a, b, c, d, rfl⟩ := len4 hix
    simp [RE.eval, einX, sum8, dom, asg, ofMat, rotO, mTy_sound h1, List.idxOf, List.findIdx_cons, lb_beq]

/-- how the rotated indices of the code correspond to typed indices: an index is left
alone if its field is not rotated, and rotated by the factor of its type otherwise -/
def Agrees (U : F → Matrix (Fin 3) (Fin 3) ℂ) (V : G → Matrix (Fin 3) (Fin 3) ℂ) :
    Option (Ty F) → Ty G → Prop
  | none, t => V t.f = 1
  | some s, t => ∀ j i, fac U s j i = fac V t j i

theorem rotO_eq_rot (U : F → Matrix (Fin 3) (Fin 3) ℂ) (V : G → Matrix (Fin 3) (Fin 3) ℂ)
    {σ : List (Option (Ty F))} {τ : List (Ty G)} (h : List.Forall₂ (Agrees U V) σ τ) (A : Ten)
    (ix : Ix) : rotO U σ A ix = rot V τ A ix := by
  induction h generalizing A ix with
  | nil => rfl
  | @cons s t σ τ hst _ ih =>
    cases ix with
    | nil => rfl
    | cons i is =>
      cases s with
      | none =>
        simp only [rotO, rot, ih]
        have hV : V t.f = 1 := hst
        have hf : ∀ j, fac V t j i = if j = i then 1 else 0 := by
          intro j
          by_cases hji : j = i
          · subst hji; simp [fac, hV]
          · simp [fac, hV, hji]
        simp [hf]
      | some s =>
        have hs : ∀ j i, fac U s j i = fac V t j i := hst
        simp only [rotO, rot, ih, hs]

/-! ### The group action -/

theorem rot_one (τ : List (Ty F)) (A : Ten) (ix : Ix) (h : ix.length = τ.length) :
    rot (fun _ => 1) τ A ix = A ix := by
  induction τ generalizing A ix with
  | nil =>
    have : ix = [] := List.length_eq_zero_iff.1 h
    subst this; rfl
  | cons t τ ih =>
    cases ix with
    | nil => simp at h
    | cons i is =>
      have hf : ∀ j, fac (fun _ : F => (1 : Matrix (Fin 3) (Fin 3) ℂ)) t j i =
          if j = i then 1 else 0 := by
        intro j
        by_cases hji : j = i
        · subst hji; simp [fac]
        · simp [fac, hji]
      simp only [rot, hf, ite_mul, one_mul, zero_mul, Finset.sum_ite_eq', Finset.mem_univ, if_true]
      exact ih _ _ (by simpa using h)

theorem fac_mul (U V : F → Matrix (Fin 3) (Fin 3) ℂ) (t : Ty F) (j i : Fin 3) :
    fac (fun f => U f * V f) t j i = ∑ x, fac U t j x * fac V t x i := by
  unfold fac
  split <;> simp [Matrix.mul_apply]

theorem rot_sum (U : F → Matrix (Fin 3) (Fin 3) ℂ) (τ : List (Ty F)) {ι : Type} (s : Finset ι)
    (A : ι → Ten) (ix : Ix) :
    rot U τ (fun j => ∑ x ∈ s, A x j) ix = ∑ x ∈ s, rot U τ (A x) ix := by
  induction τ generalizing A ix with
  | nil => rfl
  | cons t τ ih =>
    cases ix with
    | nil => simp [rot]
    | cons i is =>
      simp only [rot]
      rw [Finset.sum_comm]
      refine Finset.sum_congr rfl fun j _ => ?_
      rw [ih (fun x js => A x (j :: js)), Finset.mul_sum]

/-- rotating by `U` and then by `V` is rotating by `U V` -/
theorem rot_rot (U V : F → Matrix (Fin 3) (Fin 3) ℂ) (τ : List (Ty F)) (A : Ten) (ix : Ix) :
    rot V τ (rot U τ A) ix = rot (fun f => U f * V f) τ A ix := by
  induction τ generalizing A ix with
  | nil => rfl
  | cons t τ ih =>
    cases ix with
    | nil => rfl
    | cons i is =>
      simp only [rot, fac_mul]
      have e : ∀ x, rot V τ (fun js => ∑ j, fac U t j x * rot U τ (fun js => A (j :: js)) js) is =
          ∑ j, fac U t j x * rot (fun f => U f * V f) τ (fun js => A (j :: js)) is := by
        intro x
        rw [rot_sum V τ Finset.univ (fun j js => fac U t j x * rot U τ (fun js => A (j :: js)) js)]
        refine Finset.sum_congr rfl fun j _ => ?_
        rw [rot_const_mul, ih]
      simp only [e, Finset.mul_sum, Finset.sum_mul]
      rw [Finset.sum_comm]
      refine Finset.sum_congr rfl fun j _ => Finset.sum_congr rfl fun x _ => ?_
      ring

/-- conjugate of a rotated array -/
theorem conj_rot (U : F → Matrix (Fin 3) (Fin 3) ℂ) (τ : List (Ty F)) (A : Ten) (ix : Ix) :
    (starRingEnd ℂ) (rot U τ A ix) = rot U (τ.map Ty.flip) (fun j => (starRingEnd ℂ) (A j)) ix := by
  induction τ generalizing A ix with
  | nil => rfl
  | cons t τ ih =>
    cases ix with
    | nil => simp [rot]
    | cons i is =>
      simp only [rot, List.map_cons, map_sum, map_mul, ih]
      refine Finset.sum_congr rfl fun j _ => ?_
      congr 1
      rcases t with ⟨f, b⟩
      cases b <;> simp [fac, Ty.flip]

/-- rotations of four indices, written out -/
theorem rot4 (U : F → Matrix (Fin 3) (Fin 3) ℂ) (t1 t2 t3 t4 : Ty F) (A : Ten) (a b c d : Fin 3) :
    rot U [t1, t2, t3, t4] A [a, b, c, d] =
      ∑ i, ∑ j, ∑ k, ∑ l, fac U t1 i a * fac U t2 j b * fac U t3 k c * fac U t4 l d *
        A [i, j, k, l] := by
  simp only [rot, Finset.mul_sum]
  refine Finset.sum_congr rfl fun i _ => Finset.sum_congr rfl fun j _ =>
      Finset.sum_congr rfl fun k _ => Finset.sum_congr rfl fun l _ => ?_
  ring

/-- swapping the first two indices -/
theorem rot_swap12 (U : F → Matrix (Fin 3) (Fin 3) ℂ) (t1 t2 t3 t4 : Ty F) (A : Ten)
    (a b c d : Fin 3) :
    rot U [t2, t1, t3, t4] (fun | [i, j, k, l] => A [j, i, k, l] | _ => 0) [b, a, c, d] =
      rot U [t1, t2, t3, t4] A [a, b, c, d] := by
  simp only [rot4]
  rw [Finset.sum_comm]
  refine Finset.sum_congr rfl fun i _ => Finset.sum_congr rfl fun j _ =>
      Finset.sum_congr rfl fun k _ => Finset.sum_congr rfl fun l _ => ?_
  ring

/-- swapping the second and third index -/
theorem rot_swap23 (U : F → Matrix (Fin 3) (Fin 3) ℂ) (t1 t2 t3 t4 : Ty F) (A : Ten)
    (a b c d : Fin 3) :
    rot U [t1, t3, t2, t4] (fun | [i, j, k, l] => A [i, k, j, l] | _ => 0) [a, c, b, d] =
      rot U [t1, t2, t3, t4] A [a, b, c, d] := by
  simp only [rot4]
  refine Finset.sum_congr rfl fun i _ => ?_
  rw [Finset.sum_comm]
  refine Finset.sum_congr rfl fun j _ =>
      Finset.sum_congr rfl fun k _ => Finset.sum_congr rfl fun l _ => ?_
  ring

/-- swapping the third and fourth index -/
theorem rot_swap34 (U : F → Matrix (Fin 3) (Fin 3) ℂ) (t1 t2 t3 t4 : Ty F) (A : Ten)
    (a b c d : Fin 3) :
    rot U [t1, t2, t4, t3] (fun | [i, j, k, l] => A [i, j, l, k] | _ => 0) [a, b, d, c] =
      rot U [t1, t2, t3, t4] A [a, b, c, d] := by
  simp only [rot4]
  refine Finset.sum_congr rfl fun i _ => Finset.sum_congr rfl fun j _ => ?_
  rw [Finset.sum_comm]
  refine Finset.sum_congr rfl fun k _ => Finset.sum_congr rfl fun l _ => ?_
  ring

end Verif.Rotation

namespace Verif.Rotation
open Verif Verif.Tens Verif.Flavour BigOperators

variable {κ F : Type} [DecidableEq κ]

/-- a program whose statements assign different keys -/
theorem run_ok (U : F → Matrix (Fin 3) (Fin 3) ℂ) (Cin : Dict κ Ten) (prog : List (Stmt κ F))
    (hn : (prog.map Stmt.key).Nodup) (h : ∀ s ∈ prog, s.guarded = true ∨ s.key ∈ Cin.keys)
    (C : Dict κ Ten) :
    ∃ C', run U Cin prog C = .ok C' ∧ (C.NodupKeys → C'.NodupKeys) ∧
      (∀ s ∈ prog, ∀ A, Cin.get? s.key = some A → C'.get? s.key = some (s.rhs.eval U A)) ∧
      (∀ k, (∀ s ∈ prog, s.key = k → Cin.get? k = none) → C'.get? k = C.get? k) := by
  induction prog generalizing C with
  | nil => exact ⟨C, rfl, id, by simp, by simp⟩
  | cons s prog ih =>
    simp only [List.map_cons, List.nodup_cons] at hn
    have hs' : ∀ s' ∈ prog, s'.key ≠ s.key := fun s' h' e => hn.1 (e ▸ List.mem_map_of_mem h')
    cases hA : Cin.get? s.key with
    | none =>
      have hg : s.guarded = true := by
        rcases h s (by simp) with h1 | h1
        · exact h1
        · rw [(Dict.get?_eq_none_iff _ _).1 hA |> fun x => eq_false x] at h1
          exact h1.elim
      obtain ⟨C', h1, h2, h3, h4⟩ := ih hn.2 (fun s hs => h s (List.mem_cons_of_mem _ hs)) C
      refine ⟨C', ?_, h2, ?_, ?_⟩
      · simp only [run, List.foldlM_cons, step, hA, hg, if_true]
        exact h1
      · intro s' hs' A hA'
        rcases List.mem_cons.1 hs' with rfl | hs'
        · rw [hA] at hA'; cases hA'
        · exact h3 s' hs' A hA'
      · intro k hk
        exact h4 k fun s' hs' => hk s' (List.mem_cons_of_mem _ hs')
    | some A =>
      obtain ⟨C', h1, h2, h3, h4⟩ := ih hn.2 (fun s hs => h s (List.mem_cons_of_mem _ hs))
        (C.set s.key (s.rhs.eval U A))
      refine ⟨C', ?_, fun hC => h2 (Dict.nodupKeys_set _ _ _ hC), ?_, ?_⟩
      · simp only [run, List.foldlM_cons, step, hA]
        exact h1
      · intro s' hs'' B hB
        rcases List.mem_cons.1 hs'' with rfl | hs''
        · rw [h4 _ (fun s'' h'' e => absurd e (hs' s'' h''))]
          rw [hA, Option.some.injEq] at hB
          subst hB; simp
        · exact h3 s' hs'' B hB
      · intro k hk
        rw [h4 k fun s' hs' => hk s' (List.mem_cons_of_mem _ hs')]
        refine Dict.get?_set_ne _ _ ?_
        intro e
        have := hk s (by simp) e
        rw [← e, hA] at this
        cases this

/-- a missing key that is read without a guard is an error -/
theorem run_error (U : F → Matrix (Fin 3) (Fin 3) ℂ) (Cin : Dict κ Ten) (prog : List (Stmt κ F))
    (s : Stmt κ F) (hs : s ∈ prog) (hg : s.guarded = false) (hk : s.key ∉ Cin.keys)
    (C : Dict κ Ten) : run U Cin prog C = .error .keyError := by
  induction prog generalizing C with
  | nil => simp at hs
  | cons s' prog ih =>
    simp only [run, List.foldlM_cons]
    rcases List.mem_cons.1 hs with rfl | hs'
    · have : step U Cin C s = .error .keyError := by
        simp [step, (Dict.get?_eq_none_iff _ _).2 hk, hg]
      rw [this]; rfl
    · unfold step
      cases hA : Cin.get? s'.key with
      | some A => exact ih hs' _
      | none =>
        by_cases hg' : s'.guarded = true
        · simp only [hg', if_true]; exact ih hs' _
        · simp only [hg']; rfl

/-! ### Symmetries of rotated arrays -/

/-- rotation of four indices as one sum over index tuples -/
theorem rot4' (U : F → Matrix (Fin 3) (Fin 3) ℂ) (t1 t2 t3 t4 : Ty F) (A : Ten) (a b c d : Fin 3) :
    rot U [t1, t2, t3, t4] A [a, b, c, d] =
      ∑ i : I4, fac U t1 i.1 a * fac U t2 i.2.1 b * fac U t3 i.2.2.1 c * fac U t4 i.2.2.2 d *
        A [i.1, i.2.1, i.2.2.1, i.2.2.2] := by
  rw [rot4]
  simp only [Fintype.sum_prod_type]

/-- rotation of two indices as one sum -/
theorem rot2' (U : F → Matrix (Fin 3) (Fin 3) ℂ) (t1 t2 : Ty F) (A : Ten) (a b : Fin 3) :
    rot U [t1, t2] A [a, b] = ∑ i : I2, fac U t1 i.1 a * fac U t2 i.2 b * A [i.1, i.2] := by
  simp only [rot, Fintype.sum_prod_type, Finset.mul_sum]
  refine Finset.sum_congr rfl fun i _ => Finset.sum_congr rfl fun j _ => ?_
  ring

/-- reindexing a sum over index tuples -/
theorem sum_reindex4 (e : I4 ≃ I4) (f : I4 → ℂ) : ∑ i, f i = ∑ i, f (e i) :=
  (Equiv.sum_comp e f).symm

theorem sum_reindex2 (e : I2 ≃ I2) (f : I2 → ℂ) : ∑ i, f i = ∑ i, f (e i) :=
  (Equiv.sum_comp e f).symm

/-- permutations of index positions -/
def swapPairs : I4 ≃ I4 := ⟨fun i => (i.2.2.1, i.2.2.2, i.1, i.2.1), fun i => (i.2.2.1, i.2.2.2, i.1, i.2.1),
  fun _ => rfl, fun _ => rfl⟩
def swapIn : I4 ≃ I4 := ⟨fun i => (i.2.1, i.1, i.2.2.2, i.2.2.1), fun i => (i.2.1, i.1, i.2.2.2, i.2.2.1),
  fun _ => rfl, fun _ => rfl⟩
def swap12 : I4 ≃ I4 := ⟨fun i => (i.2.1, i.1, i.2.2.1, i.2.2.2), fun i => (i.2.1, i.1, i.2.2.1, i.2.2.2),
  fun _ => rfl, fun _ => rfl⟩
def swap24 : I4 ≃ I4 := ⟨fun i => (i.1, i.2.2.2, i.2.2.1, i.2.1), fun i => (i.1, i.2.2.2, i.2.2.1, i.2.1),
  fun _ => rfl, fun _ => rfl⟩
def cyc : I4 ≃ I4 := ⟨fun i => (i.2.2.1, i.1, i.2.1, i.2.2.2), fun i => (i.2.1, i.2.2.1, i.1, i.2.2.2),
  fun _ => rfl, fun _ => rfl⟩
def swap13 : I4 ≃ I4 := ⟨fun i => (i.2.2.1, i.2.1, i.1, i.2.2.2), fun i => (i.2.2.1, i.2.1, i.1, i.2.2.2),
  fun _ => rfl, fun _ => rfl⟩

theorem conj_fac (U : F → Matrix (Fin 3) (Fin 3) ℂ) (t : Ty F) (j i : Fin 3) :
    (starRingEnd ℂ) (fac U t j i) = fac U t.flip j i := by
  rcases t with ⟨f, b⟩
  cases b <;> simp [fac, Ty.flip]

/-- identical currents -/
theorem rot_current (U : F → Matrix (Fin 3) (Fin 3) ℂ) (s t : Ty F) (A : Ten)
    (h : ∀ i j k l, A [k, l, i, j] = A [i, j, k, l]) (a b c d : Fin 3) :
    rot U [s, t, s, t] A [c, d, a, b] = rot U [s, t, s, t] A [a, b, c, d] := by
  rw [rot4', rot4', sum_reindex4 swapPairs]
  refine Finset.sum_congr rfl fun i _ => ?_
  simp only [swapPairs, Equiv.coe_fn_mk]
  rw [h]
  ring

/-- hermitian currents -/
theorem rot_herm (U : F → Matrix (Fin 3) (Fin 3) ℂ) (s t : Ty F) (A : Ten)
    (h : ∀ i j k l, A [j, i, l, k] = (starRingEnd ℂ) (A [i, j, k, l])) (a b c d : Fin 3) :
    rot U [s.flip, s, t.flip, t] A [b, a, d, c] =
      (starRingEnd ℂ) (rot U [s.flip, s, t.flip, t] A [a, b, c, d]) := by
  rw [rot4', rot4', sum_reindex4 swapIn, map_sum]
  refine Finset.sum_congr rfl fun i _ => ?_
  simp only [swapIn, Equiv.coe_fn_mk]
  rw [h]
  simp only [map_mul, conj_fac, Ty.flip, Bool.not_not]
  ring

/-- exchange of the second and fourth index -/
theorem rot_fierz (U : F → Matrix (Fin 3) (Fin 3) ℂ) (s t : Ty F) (A : Ten)
    (h : ∀ i j k l, A [i, l, k, j] = A [i, j, k, l]) (a b c d : Fin 3) :
    rot U [s, t, s, t] A [a, d, c, b] = rot U [s, t, s, t] A [a, b, c, d] := by
  rw [rot4', rot4', sum_reindex4 swap24]
  refine Finset.sum_congr rfl fun i _ => ?_
  simp only [swap24, Equiv.coe_fn_mk]
  rw [h]
  ring

/-- exchange of the first two indices, up to a sign -/
theorem rot_12 (U : F → Matrix (Fin 3) (Fin 3) ℂ) (s t1 t2 : Ty F) (A : Ten) (z : ℂ)
    (h : ∀ i j k l, A [j, i, k, l] = z * A [i, j, k, l]) (a b c d : Fin 3) :
    rot U [s, s, t1, t2] A [b, a, c, d] = z * rot U [s, s, t1, t2] A [a, b, c, d] := by
  rw [rot4', rot4', sum_reindex4 swap12, Finset.mul_sum]
  refine Finset.sum_congr rfl fun i _ => ?_
  simp only [swap12, Equiv.coe_fn_mk]
  rw [h]
  ring

/-- the linear relation of class 8 -/
theorem rot_class8 (U : F → Matrix (Fin 3) (Fin 3) ℂ) (s t : Ty F) (A : Ten)
    (h : ∀ p r s t, A [p, r, s, t] + A [r, p, s, t] = A [s, p, r, t] + A [s, r, p, t])
    (a b c d : Fin 3) :
    rot U [s, s, s, t] A [a, b, c, d] + rot U [s, s, s, t] A [b, a, c, d] =
      rot U [s, s, s, t] A [c, a, b, d] + rot U [s, s, s, t] A [c, b, a, d] := by
  have e1 : rot U [s, s, s, t] A [b, a, c, d] = ∑ i : I4, fac U s i.1 a * fac U s i.2.1 b *
      fac U s i.2.2.1 c * fac U t i.2.2.2 d * A [i.2.1, i.1, i.2.2.1, i.2.2.2] := by
    rw [rot4', sum_reindex4 swap12]
    refine Finset.sum_congr rfl fun i _ => ?_
    simp only [swap12, Equiv.coe_fn_mk]
    ring
  have e2 : rot U [s, s, s, t] A [c, a, b, d] = ∑ i : I4, fac U s i.1 a * fac U s i.2.1 b *
      fac U s i.2.2.1 c * fac U t i.2.2.2 d * A [i.2.2.1, i.1, i.2.1, i.2.2.2] := by
    rw [rot4', sum_reindex4 cyc]
    refine Finset.sum_congr rfl fun i _ => ?_
    simp only [cyc, Equiv.coe_fn_mk]
    ring
  have e3 : rot U [s, s, s, t] A [c, b, a, d] = ∑ i : I4, fac U s i.1 a * fac U s i.2.1 b *
      fac U s i.2.2.1 c * fac U t i.2.2.2 d * A [i.2.2.1, i.2.1, i.1, i.2.2.2] := by
    rw [rot4', sum_reindex4 swap13]
    refine Finset.sum_congr rfl fun i _ => ?_
    simp only [swap13, Equiv.coe_fn_mk]
    ring
  rw [e1, e2, e3, rot4', ← Finset.sum_add_distrib, ← Finset.sum_add_distrib]
  refine Finset.sum_congr rfl fun i _ => ?_
  rw [← mul_add, ← mul_add, h]

/-- hermitian matrix -/
theorem rot_herm2 (U : F → Matrix (Fin 3) (Fin 3) ℂ) (s : Ty F) (A : Ten)
    (h : ∀ i j, A [j, i] = (starRingEnd ℂ) (A [i, j])) (a b : Fin 3) :
    rot U [s.flip, s] A [b, a] = (starRingEnd ℂ) (rot U [s.flip, s] A [a, b]) := by
  rw [rot2', rot2', sum_reindex2 (Equiv.prodComm _ _), map_sum]
  refine Finset.sum_congr rfl fun i _ => ?_
  simp only [Equiv.prodComm_apply, Prod.fst_swap, Prod.snd_swap]
  rw [h]
  simp only [map_mul, conj_fac, Ty.flip,
    Bool.not_not]
  ring

/-- symmetric matrix -/
theorem rot_symm2 (U : F → Matrix (Fin 3) (Fin 3) ℂ) (s : Ty F) (A : Ten)
    (h : ∀ i j, A [j, i] = A [i, j]) (a b : Fin 3) :
    rot U [s, s] A [b, a] = rot U [s, s] A [a, b] := by
  rw [rot2', rot2', sum_reindex2 (Equiv.prodComm _ _)]
  refine Finset.sum_congr rfl fun i _ => ?_
  simp only [Equiv.prodComm_apply, Prod.fst_swap, Prod.snd_swap]
  rw [h]
  ring

end Verif.Rotation
