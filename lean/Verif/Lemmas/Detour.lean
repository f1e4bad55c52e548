import Verif.Lemmas.Shares
import Verif.Spec.Detour

/-
Arithmetic of the detours.
-/

namespace Verif
open Spec

/-- Two deposits against one. -/
theorem detour_deposit {S V g1 g2 m m1 m2 : Nat} (hV : 0 < V) (hg : g2 ≤ V)
    (h : Down (S * (g1 + g2)) V m) (h1 : Down (S * g1) V m1)
    (h2 : Down ((S + m1) * g2) (V + g1) m2) : m1 + m2 ≤ m ∧ m ≤ m1 + m2 + 2 := by
  obtain ⟨ha, hb⟩ := h
  obtain ⟨ha1, hb1⟩ := h1
  obtain ⟨ha2, hb2⟩ := h2
  have hW : 0 < V + g1 := by omega
  constructor
  · -- m2 * V ≤ S * g2
    have e1 : m2 * V * (V + g1) ≤ S * g2 * (V + g1) := by
      have t1 : m2 * (V + g1) * V ≤ (S + m1) * g2 * V := Nat.mul_le_mul_right V ha2
      have t2 : m1 * V * g2 ≤ S * g1 * g2 := Nat.mul_le_mul_right g2 ha1
      nlinarith
    have e2 : m2 * V ≤ S * g2 := Nat.le_of_mul_le_mul_right e1 hW
    have e3 : (m1 + m2) * V < (m + 1) * V := by
      have : S * (g1 + g2) = S * g1 + S * g2 := Nat.mul_add _ _ _
      rw [Nat.add_mul]; omega
    have := Nat.lt_of_mul_lt_mul_right e3
    omega
  · have e1 : S * g2 * (V + g1) ≤ (m2 + 2) * V * (V + g1) := by
      have t1 : (S + m1) * g2 * V ≤ (m2 + 1) * (V + g1) * V := Nat.mul_le_mul_right V (le_of_lt hb2)
      have t2 : S * g1 * g2 ≤ (m1 + 1) * V * g2 := Nat.mul_le_mul_right g2 (le_of_lt hb1)
      have t3 : V * g2 ≤ V * (V + g1) := Nat.mul_le_mul_left V (by omega)
      nlinarith
    have e2 : S * g2 ≤ (m2 + 2) * V := Nat.le_of_mul_le_mul_right e1 hW
    have e3 : m * V < (m1 + m2 + 3) * V := by
      have t : S * (g1 + g2) = S * g1 + S * g2 := Nat.mul_add _ _ _
      have t' : (m1 + m2 + 3) * V = (m1 + 1) * V + (m2 + 2) * V := by
        rw [← Nat.add_mul]; congr 1; omega
      omega
    have := Nat.lt_of_mul_lt_mul_right e3
    omega

/-- A withdrawal of both sides is worth at most its share, and at least its share less rounding. -/
theorem detour_withdraw {S V p n a b : Nat} (h1 : Down (n * (V / 2)) S a)
    (h2 : Down (n * (V / 2)) (p * S) b) :
    S * (a + p * b) ≤ n * V ∧ n * V < S * (a + p * b) + n + S + p * S := by
  obtain ⟨ha, ha'⟩ := h1
  obtain ⟨hb, hb'⟩ := h2
  have hw : 2 * (V / 2) ≤ V := by omega
  have hw' : V ≤ 2 * (V / 2) + 1 := by omega
  generalize V / 2 = W at *
  have t1 : n * (2 * W) ≤ n * V := Nat.mul_le_mul_left n hw
  have t2 : n * V ≤ n * (2 * W + 1) := Nat.mul_le_mul_left n hw'
  constructor <;> nlinarith

end Verif
