import Verif.Lemmas.LinearLocked

/-
Inversion of the two linear swap functions: what a successful result says about the curve
positions before and after.
-/

namespace Verif
namespace Linear
open Dfs

/-- What validation guarantees, in natural numbers. -/
structure Nz (c : LinearPriceCurve) : Prop where
  sn : sn c ≠ 0
  sd : sd c ≠ 0
  pd : pd c ≠ 0

theorem whole_le_AMAX {A : Nat} (h : A < 36893488147419103232) : A * ONE ≤ AMAX := by
  rw [ONE_val, AMAX_val]; omega

theorem bValue_ok {c : LinearPriceCurve} (hc : Nz c) {A b : Nat} {up : Bool}
    (hA : A < 36893488147419103232) (h : bValue c (A * ONE) up = .ok b) :
    ∃ root, sqrtU64 (rad c (A * ONE)) up = .ok root ∧ b = (root - price c) * sd c / sn c := by
  rw [bValue_eq c hc.sn hc.sd hc.pd (whole_le_AMAX hA), Res.bind_eq_ok] at h
  obtain ⟨root, h1, h2⟩ := h
  exact ⟨root, h1, (Res.ok.inj h2).symm⟩

/-- Loose bound on any curve position: far from the 256-bit limit. -/
theorem bValue_lt {c : LinearPriceCurve} (hc : Nz c) {A b : Nat} {up : Bool}
    (hA : A < 36893488147419103232) (h : bValue c (A * ONE) up = .ok b) :
    b ≤ 2 ^ 97 * SQRT_ONE * 18446744073709551616 := by
  obtain ⟨root, h1, h2⟩ := bValue_ok hc hA h
  have hr := root_le (rad_le c (whole_le_AMAX hA)) h1
  have hsd : sd c < 18446744073709551616 := u64_lt _
  rw [h2]
  refine le_trans (Nat.div_le_self _ _) (Nat.mul_le_mul (le_trans (Nat.sub_le _ _) hr) (le_of_lt hsd))

theorem floor_div {x y : Nat} (h : toImprecise (x / ONE * ONE) = .ok y) : y = x / ONE := by
  unfold toImprecise at h
  rw [Res.bind_eq_ok] at h
  obtain ⟨s, hs, h⟩ := h
  rw [(cadd_eq_ok.1 hs).2, cdiv_ok ONE_ne, Res.ok_bind, round_cancel] at h
  split at h
  · exact (Res.ok.inj h).symm
  · cases h

theorem toImprecise_inv {x y : Nat} (h : toImprecise x = .ok y) :
    y = (x + roundingCorrection) / ONE := by
  unfold toImprecise at h
  rw [Res.bind_eq_ok] at h
  obtain ⟨s, hs, h⟩ := h
  rw [(cadd_eq_ok.1 hs).2, cdiv_ok ONE_ne, Res.ok_bind] at h
  split at h
  · exact (Res.ok.inj h).symm
  · cases h

theorem maximumARemaining_ok {c : LinearPriceCurve} {a0 b0 s B x y : Nat}
    (h : maximumARemaining c a0 b0 s B = .ok (x, y)) :
    y = B ∧ x ≤ s ∧ ∃ v, amtALocked c (b0 + B * ONE) = .ok v ∧ a0 ≤ v ∧
      x = (v - a0 + roundingCorrection) / ONE := by
  unfold maximumARemaining at h
  rw [Res.bind_eq_ok] at h
  obtain ⟨d, hd, h⟩ := h
  rw [Res.bind_eq_ok] at h
  obtain ⟨mb, hmb, h⟩ := h
  rw [Res.bind_eq_ok] at h
  obtain ⟨v, hv, h⟩ := h
  rw [Res.bind_eq_ok] at h
  obtain ⟨df, hdf, h⟩ := h
  rw [Res.bind_eq_ok] at h
  obtain ⟨rem, hrem, h⟩ := h
  have e1 := (new_eq_ok.1 hd).2
  have e2 := (cadd_eq_ok.1 hmb).2
  have e3 := csub_eq_ok.1 hdf
  have e4 := toImprecise_inv hrem
  split at h
  · rename_i hle
    have h' := Res.ok.inj h
    rw [Prod.mk.injEq] at h'
    obtain ⟨h1, h2⟩ := h'
    refine ⟨h2.symm, h1 ▸ hle, v, ?_, e3.1, ?_⟩
    · rw [← hv, e2, e1]
    · rw [← h1, e4, e3.2]
  · cases h

/-- The branch taken by a successful purchase. -/
theorem swapAToB_inv {c : LinearPriceCurve} {s A B x y : Nat}
    (h : swapAToB c s A B = .ok (x, y)) :
    ∃ b0, bValue c (A * ONE) true = .ok b0 ∧
      (maximumARemaining c (A * ONE) b0 s B = .ok (x, y) ∨
       (maximumARemaining c (A * ONE) b0 s B = .none ∧ x = s ∧
        ∃ b1, bValue c ((A + s) * ONE) false = .ok b1 ∧ b0 ≤ b1 ∧ y = (b1 - b0) / ONE)) := by
  unfold swapAToB at h
  rw [Res.bind_eq_ok] at h
  obtain ⟨a0, ha0, h⟩ := h
  have e0 := (new_eq_ok.1 ha0).2
  rw [e0, Res.bind_eq_ok] at h
  obtain ⟨b0, hb0, h⟩ := h
  refine ⟨b0, hb0, ?_⟩
  rcases hm : maximumARemaining c (A * ONE) b0 s B with r | _ | _
  · rw [hm] at h
    exact Or.inl h
  · rw [hm] at h
    simp only [] at h
    rw [Res.bind_eq_ok] at h
    obtain ⟨sr, hsr, h⟩ := h
    rw [Res.bind_eq_ok] at h
    obtain ⟨a1, ha1, h⟩ := h
    rw [Res.bind_eq_ok] at h
    obtain ⟨b1, hb1, h⟩ := h
    rw [Res.bind_eq_ok] at h
    obtain ⟨df, hdf, h⟩ := h
    rw [Res.bind_eq_ok] at h
    obtain ⟨fl, hfl, h⟩ := h
    rw [Res.bind_eq_ok] at h
    obtain ⟨out, hout, h⟩ := h
    have e1 := (new_eq_ok.1 hsr).2
    have e2 := (cadd_eq_ok.1 ha1).2
    have e3 := csub_eq_ok.1 hdf
    unfold floor at hfl
    rw [cdiv_ok ONE_ne, Res.ok_bind] at hfl
    rw [(cmul_eq_ok.1 hfl).2] at hout
    have e4 := floor_div hout
    have h' := Res.ok.inj h
    rw [Prod.mk.injEq] at h'
    refine Or.inr ⟨rfl, h'.1.symm, b1, ?_, e3.1, ?_⟩
    · rw [← hb1, e2, e1, Nat.add_mul]
    · rw [← h'.2, e4, e3.2]
  · rw [hm] at h
    cases h

/-- Outcomes of a successful purchase. -/
theorem swapAToB_ok {c : LinearPriceCurve} {s A B x y : Nat}
    (h : swapAToB c s A B = .ok (x, y)) :
    ∃ b0, bValue c (A * ONE) true = .ok b0 ∧
      ((y = B ∧ x ≤ s ∧ ∃ v, amtALocked c (b0 + B * ONE) = .ok v ∧ A * ONE ≤ v ∧
          x = (v - A * ONE + roundingCorrection) / ONE) ∨
       (x = s ∧ ∃ b1, bValue c ((A + s) * ONE) false = .ok b1 ∧ b0 ≤ b1 ∧ y = (b1 - b0) / ONE)) := by
  obtain ⟨b0, hb0, hc⟩ := swapAToB_inv h
  refine ⟨b0, hb0, ?_⟩
  rcases hc with hm | ⟨_, hc⟩
  · exact Or.inl (maximumARemaining_ok hm)
  · exact Or.inr hc

/-- Outcomes of a successful sale. -/
theorem swapBToA_ok {c : LinearPriceCurve} {s A x y : Nat}
    (h : swapBToA c s A = .ok (x, y)) :
    ∃ b0, bValue c (A * ONE) true = .ok b0 ∧
      ((b0 < s * ONE ∧ y = A ∧ x = (b0 + roundingCorrection) / ONE) ∨
       (s * ONE ≤ b0 ∧ x = s ∧
          ∃ v, amtALocked c ((b0 - s * ONE + (ONE - 1)) / ONE * ONE) = .ok v ∧ v ≤ A * ONE ∧
            y = (A * ONE - v) / ONE)) := by
  unfold swapBToA at h
  rw [Res.bind_eq_ok] at h
  obtain ⟨a0, ha0, h⟩ := h
  have e0 := (new_eq_ok.1 ha0).2
  rw [e0, Res.bind_eq_ok] at h
  obtain ⟨b0, hb0, h⟩ := h
  refine ⟨b0, hb0, ?_⟩
  rw [Res.bind_eq_ok] at h
  obtain ⟨sr, hsr, h⟩ := h
  have e1 := (new_eq_ok.1 hsr).2
  simp only [] at h
  rw [Res.bind_eq_ok] at h
  obtain ⟨be, hbe, h⟩ := h
  rw [e1] at hbe h
  rcases Nat.lt_or_ge b0 (s * ONE) with hlt | hge
  · have hu : unsignedSub b0 (s * ONE) = (s * ONE - b0, true) := if_neg (Nat.not_le.2 hlt)
    rw [hu] at h
    simp only [if_true] at h
    rw [Res.bind_eq_ok] at h
    obtain ⟨t, ht, h⟩ := h
    have h' := Res.ok.inj h
    rw [Prod.mk.injEq] at h'
    exact Or.inl ⟨hlt, h'.2.symm, h'.1 ▸ toImprecise_inv ht⟩
  · have hu : unsignedSub b0 (s * ONE) = (b0 - s * ONE, false) := if_pos hge
    rw [hu] at h hbe
    simp only [Bool.false_eq_true, if_false] at h hbe
    rw [Res.bind_eq_ok] at h
    obtain ⟨v, hv, h⟩ := h
    rw [Res.bind_eq_ok] at h
    obtain ⟨a', ha', h⟩ := h
    rw [Res.bind_eq_ok] at h
    obtain ⟨df, hdf, h⟩ := h
    rw [Res.bind_eq_ok] at h
    obtain ⟨fl, hfl, h⟩ := h
    rw [Res.bind_eq_ok] at h
    obtain ⟨out, hout, h⟩ := h
    have e2 := (new_eq_ok.1 ha').2
    have e3 := csub_eq_ok.1 hdf
    unfold floor at hfl
    rw [cdiv_ok ONE_ne, Res.ok_bind] at hfl
    rw [(cmul_eq_ok.1 hfl).2] at hout
    have e4 := floor_div hout
    have h' := Res.ok.inj h
    rw [Prod.mk.injEq] at h'
    have ebe : be = (b0 - s * ONE + (ONE - 1)) / ONE * ONE := by
      unfold ceiling at hbe
      rw [csub_ok ONE_pos, Res.ok_bind, Res.bind_eq_ok] at hbe
      obtain ⟨q, hq, hbe⟩ := hbe
      rw [(cadd_eq_ok.1 hq).2, cdiv_ok ONE_ne, Res.ok_bind] at hbe
      exact (cmul_eq_ok.1 hbe).2
    rw [e2] at e3
    refine Or.inr ⟨hge, h'.1.symm, v, by rw [← hv, ebe], e3.1, ?_⟩
    rw [← h'.2, e4, e3.2]

/-- Inversion of the trait-level swap. -/
theorem swapWithoutFees_buy {c : LinearPriceCurve} {s A B : Nat} {r : SwapWithoutFeesResult}
    (h : swapWithoutFees c s A B .AtoB = .ok r) :
    swapAToB c s A B = .ok (r.source_amount_swapped, r.destination_amount_swapped) ∧
      r.source_amount_swapped ≠ 0 ∧ r.destination_amount_swapped ≠ 0 := by
  unfold swapWithoutFees at h
  simp only [] at h
  rw [Res.bind_eq_ok] at h
  obtain ⟨⟨x, y⟩, h1, h⟩ := h
  rw [h1]
  unfold mapZeroToNone at h
  simp only [] at h
  by_cases hx : x = 0
  · rw [if_pos hx] at h; cases h
  by_cases hy : y = 0
  · rw [if_neg hx, if_pos hy] at h; cases h
  rw [if_neg hx, if_neg hy, Res.ok_bind, Res.ok_bind] at h
  rw [← Res.ok.inj h]
  exact ⟨rfl, hx, hy⟩

theorem swapWithoutFees_sell {c : LinearPriceCurve} {s A B : Nat} {r : SwapWithoutFeesResult}
    (h : swapWithoutFees c s B A .BtoA = .ok r) :
    swapBToA c s A = .ok (r.source_amount_swapped, r.destination_amount_swapped) ∧
      r.source_amount_swapped ≠ 0 ∧ r.destination_amount_swapped ≠ 0 := by
  unfold swapWithoutFees at h
  simp only [] at h
  rw [Res.bind_eq_ok] at h
  obtain ⟨⟨x, y⟩, h1, h⟩ := h
  rw [h1]
  unfold mapZeroToNone at h
  simp only [] at h
  by_cases hx : x = 0
  · rw [if_pos hx] at h; cases h
  by_cases hy : y = 0
  · rw [if_neg hx, if_pos hy] at h; cases h
  rw [if_neg hx, if_neg hy, Res.ok_bind, Res.ok_bind] at h
  rw [← Res.ok.inj h]
  exact ⟨rfl, hx, hy⟩

/-! ### Monotonicity -/

theorem rad_mono (c : LinearPriceCurve) {a a' : Nat} (h : a ≤ a') : rad c a ≤ rad c a' := by
  unfold rad
  gcongr

theorem bValue_mono {c : LinearPriceCurve} (hc : Nz c) {A A' b b' : Nat} {up : Bool}
    (hAA : A ≤ A') (hA : A' < 36893488147419103232) (h : bValue c (A * ONE) up = .ok b)
    (h' : bValue c (A' * ONE) up = .ok b') : b ≤ b' := by
  obtain ⟨r, h1, h2⟩ := bValue_ok hc (lt_of_le_of_lt hAA hA) h
  obtain ⟨r', h1', h2'⟩ := bValue_ok hc hA h'
  have hle := sqrtU64_mono (rad_mono c (Nat.mul_le_mul_right ONE hAA))
    (rad_lt c (whole_le_AMAX hA)) h1 h1'
  rw [h2, h2']
  gcongr

theorem bValue_down_le_up {c : LinearPriceCurve} (hc : Nz c) {A b b' : Nat}
    (hA : A < 36893488147419103232) (h : bValue c (A * ONE) false = .ok b)
    (h' : bValue c (A * ONE) true = .ok b') : b ≤ b' := by
  obtain ⟨r, h1, h2⟩ := bValue_ok hc hA h
  obtain ⟨r', h1', h2'⟩ := bValue_ok hc hA h'
  have hle := sqrtU64_down_le_up (rad_lt c (whole_le_AMAX hA)) h1 h1'
  rw [h2, h2']
  gcongr

end Linear
end Verif
