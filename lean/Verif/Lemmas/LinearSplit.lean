import Verif.Lemmas.LinearAcc

/-
Helper lemma for C70: two successive sales against one sale of the combined amount.
-/

namespace Verif
namespace Linear
open Dfs

variable {c : LinearPriceCurve} {H P Q : Nat}

/-- The pool keeps at least the cost of the whole position a sale leaves it at. -/
theorem Rep.sell_keeps (h : Rep c H P Q) {A n v y : Nat} (hA : A < 18446744073709551616)
    (hv : amtALocked c (n * ONE) = .ok v) (hvA : v ≤ A * ONE) (hy : y = (A * ONE - v) / ONE) :
    v = L H P n ∧ y ≤ A ∧ v ≤ (A - y) * ONE := by
  have hyA : y * ONE ≤ A * ONE - v := by rw [hy]; exact Nat.div_mul_le_self _ _
  have hyA' : y ≤ A := Nat.le_of_mul_le_mul_right (le_trans hyA (Nat.sub_le _ _)) ONE_pos
  have hV : v < VMAX := by
    refine lt_of_le_of_lt hvA ?_
    rw [ONE_val, VMAX_val]; omega
  have hvF := (amt_eq_ok h.nz.sn hv hV).1
  rw [h.amtF_whole] at hvF
  refine ⟨hvF, hyA', ?_⟩
  rw [Nat.sub_mul]
  omega

theorem pay_sum {a a' p q v v' : Nat} (h1 : p ≤ a) (h2 : a' = a - p) (h3 : q ≤ a' - v')
    (h4 : v ≤ v') (h5 : v' ≤ a') : p + q ≤ a - v := by
  omega

theorem Rep.sell_split (h : Rep c H P Q) (hval : isCurveParamValid c = .ok ())
    {s1 s2 A x1 y1 x2 y2 : Nat} (hA : A < 18446744073709551616)
    (hs : s1 + s2 < 18446744073709551616) (h1 : swapBToA c s1 A = .ok (x1, y1))
    (h2 : swapBToA c s2 (A - y1) = .ok (x2, y2)) (hx1 : x1 ≠ 0) :
    ∃ x y, swapBToA c (s1 + s2) A = .ok (x, y) ∧ x ≠ 0 ∧ y1 + y2 ≤ y := by
  obtain ⟨b0, hb0, hc1⟩ := swapBToA_ok h1
  obtain ⟨b2, hb2, hc2⟩ := swapBToA_ok h2
  obtain ⟨f1, f2⟩ := swapBToA_of (s := s1 + s2) hA hs hval hb0
  have hs2 : y1 ≤ A → y2 ≤ A - y1 := by
    intro _
    rcases hc2 with ⟨_, hy, _⟩ | ⟨_, _, v, _, hvA, hy⟩
    · exact le_of_eq hy
    · have : y2 * ONE ≤ (A - y1) * ONE := by
        rw [hy]; exact le_trans (Nat.div_mul_le_self _ _) (Nat.sub_le _ _)
      exact Nat.le_of_mul_le_mul_right this ONE_pos
  have hy1 : y1 ≤ A := by
    rcases hc1 with ⟨_, hy, _⟩ | ⟨_, _, v, hv, hvA, hy⟩
    · exact le_of_eq hy
    · exact (h.sell_keeps hA hv hvA hy).2.1
  rcases Nat.lt_or_ge b0 ((s1 + s2) * ONE) with hlt | hge
  · refine ⟨_, _, f1 hlt, ?_, by have := hs2 hy1; omega⟩
    rcases hc1 with ⟨_, _, hx⟩ | ⟨hle, hx, _⟩
    · rw [← hx]; exact hx1
    · have : s1 ≤ (b0 + roundingCorrection) / ONE := by
        rw [Nat.le_div_iff_mul_le ONE_pos]; exact le_trans hle (Nat.le_add_right _ _)
      clear hc2 f1 f2 hs2
      rw [hx] at hx1
      exact Nat.ne_of_gt (lt_of_lt_of_le (Nat.pos_of_ne_zero hx1) this)
  · rw [Nat.add_mul] at hge
    rcases hc1 with ⟨hlt, _⟩ | ⟨hle, hx, v, hv, hvA, hy⟩
    · omega
    obtain ⟨k1, _, k3⟩ := h.sell_keeps hA hv hvA hy
    rw [k1] at k3
    have hup := h.up_ge_whole (by omega) hb2 k3
    have hce := le_ceil (b0 - s1 * ONE)
    rcases hc2 with ⟨hlt, _⟩ | ⟨hle2, _, v2, hv2, hvA2, hy2⟩
    · omega
    have hn : (b0 - (s1 + s2) * ONE + (ONE - 1)) / ONE * ONE ≤
        (b2 - s2 * ONE + (ONE - 1)) / ONE * ONE := by
      refine Nat.mul_le_mul_right _ (Nat.div_le_div_right (Nat.add_le_add_right ?_ _))
      rw [Nat.add_mul]
      omega
    have hV2 : v2 < VMAX := by
      refine lt_of_le_of_lt hvA2 ?_
      rw [ONE_val, VMAX_val]; omega
    have hvF := (amt_eq_ok h.nz.sn hv2 hV2).1
    have hmono := amtF_mono c hn
    rw [← hvF] at hmono
    have hAA : (A - y1) * ONE ≤ A * ONE := Nat.mul_le_mul_right _ (Nat.sub_le _ _)
    refine ⟨_, _, f2 (by rw [Nat.add_mul]; exact hge) (by omega), by omega, ?_⟩
    have hk2 : y2 * ONE ≤ (A - y1) * ONE - v2 := by rw [hy2]; exact Nat.div_mul_le_self _ _
    have hk1 : y1 * ONE ≤ A * ONE := Nat.mul_le_mul_right _ hy1
    have hk3 : (A - y1) * ONE = A * ONE - y1 * ONE := Nat.sub_mul _ _ _
    rw [Nat.le_div_iff_mul_le ONE_pos]
    exact le_trans (le_of_eq (Nat.add_mul _ _ _)) (pay_sum hk1 hk3 hk2 hmono hvA2)

end Linear
end Verif
