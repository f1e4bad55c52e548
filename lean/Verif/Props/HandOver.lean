import Verif.Props.Every
import Verif.Props.Spot
import Verif.Props.Steep

/-
C72 on every accepted curve.
-/

namespace Verif
namespace Props
open Spec
open Linear hiding price marginal_sq position_nonneg

/-- C72, purchases, whatever the parameters: the same offer buys from the second pool what it would buy from
one long curve, to within one token B and the distances of C97. -/
theorem C72_every (c c' : LinearPriceCurve) (hv : isCurveParamValid c = .ok ())
    (hv' : isCurveParamValid c' = .ok ()) (N C : Nat) (hc : Continues c c' N) (hC : cost c N = C)
    (s A B B' : Nat) (r r' : SwapWithoutFeesResult) (hs : s < 2 ^ 64) (hA : C + A < 2 ^ 64)
    (h : Linear.swapWithoutFees c s (C + A) B .AtoB = .ok r)
    (hne : r.destination_amount_swapped < B)
    (h' : Linear.swapWithoutFees c' s A B' .AtoB = .ok r')
    (hne' : r'.destination_amount_swapped < B') :
    |(r'.destination_amount_swapped : ℝ) - r.destination_amount_swapped| <
      1 + blur c (C + A) + blur c (C + A + s) + grain c (C + A) + grain c (C + A + s) +
        2 * notch c + 2 / 10 ^ 18 := by
  obtain ⟨_, hall⟩ := C72_handover c c' hv N C hc hC
  obtain ⟨m1, q1, t1⟩ := hall A
  obtain ⟨m2, q2, t2⟩ := hall (A + s)
  have e : (2 : ℝ) / 10 ^ 18 = 1 / 10 ^ 18 + 1 / 10 ^ 18 := by norm_num
  rw [← Nat.add_assoc] at q2 t2 m2
  have g1 : grain c' A = grain c (C + A) := by unfold grain; rw [m1, hc.1]
  have g2 : grain c' (A + s) = grain c (C + A + s) := by unfold grain; rw [m2, hc.1]
  have g3 : notch c' = notch c := by unfold notch; rw [hc.1]
  have hA' : A < 2 ^ 64 := lt_of_le_of_lt (Nat.le_add_left _ _) hA
  rcases C97_buy c hv s (C + A) B r hs hA h with ⟨_, h1, h2⟩ | ⟨hB, _⟩
  · rcases C97_buy c' hv' s A B' r' hs hA' h' with ⟨_, h3, h4⟩ | ⟨hB, _⟩
    · rw [t1, t2] at h4
      rw [g1, g3] at h3
      rw [g2, g3] at h4
      rw [abs_lt]
      constructor <;> linarith
    · omega
  · omega

/-- 42 token B of this curve cost 300; neither it nor the continuing curve is representable. -/
example : Continues thirdCurve ⟨1, 3, 99, 7⟩ 42 ∧ cost thirdCurve (42 : Nat) = (300 : Nat) ∧
    ¬ Representable thirdCurve ∧ ¬ Representable ⟨1, 3, 99, 7⟩ := by
  unfold Continues
  decide +kernel

example : Linear.swapWithoutFees thirdCurve 100 (300 + 20) 90 .AtoB = .ok ⟨100, 6⟩ ∧
    Linear.swapWithoutFees ⟨1, 3, 99, 7⟩ 100 20 90 .AtoB = .ok ⟨100, 6⟩ := by decide +kernel

end Props
end Verif
