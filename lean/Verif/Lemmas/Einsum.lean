import Verif.Model.Tensor
import Mathlib.Algebra.BigOperators.Pi

/-!
# Lemmas: `einsum` as explicit sums
-/

set_option autoImplicit false

namespace Verif.Tens
open BigOperators

/-- an assignment of values to the labels -/
def mkσ (p r s t v w : Fin 3) : Lbl → Fin 3
  | .p => p | .r => r | .s => s | .t => t | .v => v | .w => w

theorem sum_piFinset_lbl (D : Lbl → Finset (Fin 3)) (f : (Lbl → Fin 3) → ℂ) :
    ∑ σ ∈ Fintype.piFinset D, f σ =
      ∑ p ∈ D .p, ∑ r ∈ D .r, ∑ s ∈ D .s, ∑ t ∈ D .t, ∑ v ∈ D .v, ∑ w ∈ D .w,
        f (mkσ p r s t v w) := by
  simp only [← Finset.sum_product']
  refine Finset.sum_bij' (fun σ _ => (σ .p, σ .r, σ .s, σ .t, σ .v, σ .w))
    (fun x _ => mkσ x.1 x.2.1 x.2.2.1 x.2.2.2.1 x.2.2.2.2.1 x.2.2.2.2.2) ?_ ?_ ?_ ?_ ?_
  · intro σ hσ
    have := Fintype.mem_piFinset.1 hσ
    simp only [Finset.mem_product]
    exact ⟨this _, this _, this _, this _, this _, this _⟩
  · rintro ⟨p, r, s, t, v, w⟩ h
    simp only [Finset.mem_product] at h
    obtain ⟨h1, h2, h3, h4, h5, h6⟩ := h
    rw [Fintype.mem_piFinset]
    intro l
    cases l <;> assumption
  · intro σ _
    funext l
    cases l <;> rfl
  · rintro ⟨p, r, s, t, v, w⟩ _
    rfl
  · intro σ _
    congr 1
    funext l
    cases l <;> rfl

/-- test of the model of `einsum`: `einsum("prst,pw", A, B)` has the output indices
r, s, t, w in alphabetical order -/
example (A B : Ten) (r s t w : Fin 3) :
    einT [.p, .r, .s, .t] A [.p, .w] B [] (fun _ => 1) [r, s, t, w] =
      ∑ p, A [p, r, s, t] * B [p, w] := by
  unfold einT
  rw [sum_piFinset_lbl]
  simp [einDom, outLabels, Lbl.all, mkσ, List.count_cons]

/-- test: `einsum("rspt,pt", A, B)` contracts the last two indices -/
example (A B : Ten) (r s : Fin 3) :
    einT [.r, .s, .p, .t] A [.p, .t] B [] (fun _ => 1) [r, s] =
      ∑ p, ∑ t, A [r, s, p, t] * B [p, t] := by
  unfold einT
  rw [sum_piFinset_lbl]
  simp [einDom, outLabels, Lbl.all, mkσ, List.count_cons]

/-- test: a single operand is permuted to alphabetical order: `einsum("stpr", A)[p,r,s,t]`
is `A[s,t,p,r]` -/
example (A : Ten) (p r s t : Fin 3) :
    einT [.s, .t, .p, .r] A [] (fun _ => 1) [] (fun _ => 1) [p, r, s, t] = A [s, t, p, r] := by
  unfold einT
  rw [sum_piFinset_lbl]
  simp [einDom, outLabels, Lbl.all, mkσ, List.count_cons]

end Verif.Tens
