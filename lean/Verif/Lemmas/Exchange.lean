import Mathlib.Tactic.Ring
import Mathlib.Tactic.Linarith
import Verif.Spec.Exchange
import Verif.Lemmas.Curves

/-
Exact outcomes of the value-based curves.
-/

namespace Verif

/-- Quotient rounded up. -/
def cd (a b : Nat) : Nat := (a + (b - 1)) / b

theorem cd_le_iff {a b q : Nat} (hb : 0 < b) : cd a b ≤ q ↔ a ≤ q * b := by
  unfold cd
  rw [Nat.div_le_iff_le_mul_add_pred hb, Nat.mul_comm b q]
  omega

theorem le_cd_mul {a b : Nat} (hb : 0 < b) : a ≤ cd a b * b := (cd_le_iff hb).1 (le_refl _)

theorem cd_eq {a b q : Nat} (hb : 0 < b) (h1 : a ≤ q * b) (h2 : q * b < a + b) : cd a b = q := by
  apply le_antisymm ((cd_le_iff hb).2 h1)
  by_contra hc
  have h3 : cd a b ≤ q - 1 := by omega
  rw [cd_le_iff hb, Nat.sub_mul, Nat.one_mul] at h3
  have : 0 < q := by omega
  have : b ≤ q * b := Nat.le_mul_of_pos_left _ this
  omega

theorem ceilDiv_eq {h : Bool} {lim a b : Nat} (hb : 0 < b) (hba : b ≤ a) (ha : a < lim) :
    Spl.ceilDiv h lim a b = .ok (cd a b, cd a (cd a b)) := by
  have hb0 : b ≠ 0 := by omega
  have hq1 : 1 ≤ a / b := (Nat.le_div_iff_mul_le hb).2 (by omega)
  have hdm := Nat.div_add_mod a b
  have hml := Nat.mod_lt a hb
  unfold Spl.ceilDiv
  rw [cdiv_ok hb0, Res.ok_bind, if_neg (by omega)]
  rw [show crem a b = .ok (a % b) from if_neg hb0, Res.ok_bind]
  by_cases hr : 0 < a % b
  · rw [if_pos hr]
    have e1 : cd a b = a / b + 1 := by
      apply cd_eq hb
      · rw [Nat.add_mul, Nat.one_mul, Nat.mul_comm]; omega
      · rw [Nat.add_mul, Nat.one_mul, Nat.mul_comm]; omega
    have hb2 : 2 ≤ b := by omega
    have h2 : 2 * (a / b) ≤ b * (a / b) := Nat.mul_le_mul_right _ hb2
    rw [cadd_ok (by omega), Res.ok_bind]
    have hq0 : a / b + 1 ≠ 0 := by omega
    rw [cdiv_ok hq0, Res.ok_bind, show crem a (a / b + 1) = .ok (a % (a / b + 1)) from if_neg hq0,
      Res.ok_bind, e1]
    have hdm2 := Nat.div_add_mod a (a / b + 1)
    have hml2 := Nat.mod_lt a (Nat.pos_of_ne_zero hq0)
    by_cases hr2 : 0 < a % (a / b + 1)
    · rw [if_pos hr2]
      have e2 : cd a (a / b + 1) = a / (a / b + 1) + 1 := by
        apply cd_eq (by omega)
        · rw [Nat.add_mul, Nat.one_mul, Nat.mul_comm (a / (a / b + 1))]; omega
        · rw [Nat.add_mul, Nat.one_mul, Nat.mul_comm (a / (a / b + 1))]; omega
      have h3 : 2 * (a / (a / b + 1)) ≤ (a / b + 1) * (a / (a / b + 1)) :=
        Nat.mul_le_mul_right _ (by omega)
      rw [cadd_ok (by omega), Res.ok_bind, e2]
    · rw [if_neg hr2]
      have e2 : cd a (a / b + 1) = a / (a / b + 1) := by
        apply cd_eq (by omega)
        · rw [Nat.mul_comm]; omega
        · rw [Nat.mul_comm]; omega
      rw [e2]
  · rw [if_neg hr]
    have e1 : cd a b = a / b := by
      apply cd_eq hb
      · rw [Nat.mul_comm]; omega
      · rw [Nat.mul_comm]; omega
    have e2 : cd a (a / b) = b := by
      apply cd_eq (by omega)
      · omega
      · omega
    rw [e1, e2]

theorem ConstantProduct.swap_iff {e : SplEnv} {s x y : Nat} (hx : 0 < x) (hi : x * y < U128)
    (hn : x + s < U128) (q : SwapWithoutFeesResult) :
    ConstantProduct.swap e s x y = .ok q ↔
      Spec.ProductTrade s x y q.source_amount_swapped q.destination_amount_swapped := by
  have hns : 0 < x + s := by omega
  unfold ConstantProduct.swap
  rw [cmul_ok hi, Res.ok_bind, cadd_ok hn, Res.ok_bind]
  rcases Nat.lt_or_ge (x * y) (x + s) with hlt | hge
  · constructor
    · intro h
      rw [Res.bind_eq_ok] at h
      obtain ⟨⟨c, dv⟩, hc, h⟩ := h
      obtain ⟨_, hcase⟩ := ceilDiv_ok hc
      rcases hcase with ⟨_, hdv, _⟩ | ⟨hh, _⟩
      · rw [Res.bind_eq_ok] at h
        obtain ⟨sw, hsw, h⟩ := h
        have := (csub_eq_ok.1 hsw).1
        simp only [] at this
        omega
      · omega
    · intro h
      have := h.1
      omega
  · rw [ceilDiv_eq hns hge hi, Res.ok_bind]
    simp only []
    have hy : 0 < y := by
      rcases Nat.eq_zero_or_pos y with h0 | h0
      · rw [h0, Nat.mul_zero] at hge; omega
      · exact h0
    have h1 := le_cd_mul (a := x * y) hns
    have hcy : cd (x * y) (x + s) ≤ y := by
      rw [cd_le_iff hns]
      calc x * y = y * x := Nat.mul_comm _ _
        _ ≤ y * (x + s) := Nat.mul_le_mul_left _ (Nat.le_add_right _ _)
    have h2 : ∀ k, k < cd (x * y) (x + s) → k * (x + s) < x * y := by
      intro k hk
      by_contra hc
      have := (cd_le_iff (a := x * y) (q := k) hns).2 (by omega)
      omega
    generalize hC : cd (x * y) (x + s) = C at *
    have hC0 : 0 < C := by
      rcases Nat.eq_zero_or_pos C with h0 | h0
      · rw [h0, Nat.zero_mul] at h1; omega
      · exact h0
    have hxD : x ≤ cd (x * y) C := by
      by_contra hc
      have : cd (x * y) C ≤ x - 1 := by omega
      rw [cd_le_iff hC0] at this
      have h3 : (x - 1) * C ≤ (x - 1) * y := Nat.mul_le_mul_left _ hcy
      have h4 : (x - 1) * y = x * y - y := by rw [Nat.sub_mul, Nat.one_mul]
      have : y ≤ x * y := Nat.le_mul_of_pos_left _ hx
      omega
    rw [csub_ok hxD, Res.ok_bind, csub_ok hcy, Res.ok_bind]
    -- the payment
    have hd : ∀ d, (d * (x + s) ≤ y * s ∧ y * s < (d + 1) * (x + s)) ↔ d = y - C := by
      intro d
      have hys : y * s + x * y = y * (x + s) := by ring
      have e1 : (y - C) * (x + s) + C * (x + s) = y * (x + s) := by
        rw [← Nat.add_mul, Nat.sub_add_cancel hcy]
      have e2 := h2 (C - 1) (by omega)
      rw [Nat.sub_mul, Nat.one_mul] at e2
      have e3 : x + s ≤ C * (x + s) := Nat.le_mul_of_pos_left _ hC0
      have up : y * s < (y - C + 1) * (x + s) := by
        rw [Nat.add_mul, Nat.one_mul]; omega
      have lo : (y - C) * (x + s) ≤ y * s := by omega
      constructor
      · rintro ⟨d1, d2⟩
        have a1 : d < y - C + 1 := Nat.lt_of_mul_lt_mul_right (lt_of_le_of_lt d1 up)
        have a2 : y - C < d + 1 := Nat.lt_of_mul_lt_mul_right (lt_of_le_of_lt lo d2)
        omega
      · rintro rfl
        exact ⟨lo, up⟩
    have hl : ∀ t, IsLeast {t | x * y ≤ (x + t) * (y - (y - C))} t ↔ t = cd (x * y) C - x := by
      have e : y - (y - C) = C := by omega
      have key : IsLeast {t | x * y ≤ (x + t) * (y - (y - C))} (cd (x * y) C - x) := by
        rw [e]
        constructor
        · show x * y ≤ (x + (cd (x * y) C - x)) * C
          rw [Nat.add_sub_cancel' hxD]
          exact le_cd_mul hC0
        · intro t ht
          have : cd (x * y) C ≤ x + t := (cd_le_iff hC0).2 ht
          omega
      intro t
      exact ⟨fun h => h.unique key, fun h => h ▸ key⟩
    unfold Spec.ProductTrade mapZeroToNone
    obtain ⟨t, d⟩ := q
    simp only []
    by_cases hz : y - C = 0
    · rw [if_pos hz]
      constructor
      · intro h; cases h
      · rintro ⟨_, h3, h4, h5, _⟩
        have := (hd d).1 ⟨h4, h5⟩
        omega
    · rw [if_neg hz, Res.ok_bind]
      constructor
      · intro h
        have := Res.ok.inj h
        rw [SwapWithoutFeesResult.mk.injEq] at this
        obtain ⟨rfl, rfl⟩ := this
        obtain ⟨a1, a2⟩ := (hd (y - C)).2 rfl
        exact ⟨hge, by omega, a1, a2, (hl _).2 rfl⟩
      · rintro ⟨_, h3, h4, h5, h6⟩
        have e1 := (hd d).1 ⟨h4, h5⟩
        rw [e1] at h6 ⊢
        rw [(hl t).1 h6]

theorem ConstantPrice.swap_iff {p : UInt64} {s : Nat} {dir : TradeDirection} (hs : s < U64)
    (q : SwapWithoutFeesResult) :
    ConstantPrice.swapWithoutFees p s dir = .ok q ↔
      Spec.PriceTrade p.toNat s dir q.source_amount_swapped q.destination_amount_swapped := by
  constructor
  · intro h
    obtain ⟨h1, h2, h3, h4⟩ := ConstantPrice.swap_ok h
    refine ⟨by omega, by omega, ?_⟩
    cases dir with
    | AtoB =>
      simp only [] at h4 ⊢
      refine ⟨h4.1, h1, ?_⟩
      have hp : 0 < p.toNat := by
        rcases Nat.eq_zero_or_pos p.toNat with h0 | h0
        · rw [h0, Nat.zero_mul] at h4; omega
        · exact h0
      rw [h4.1, h4.2, ← Nat.mul_succ]
      exact Nat.lt_mul_div_succ s hp
    | BtoA =>
      simp only [] at h4 ⊢
      exact ⟨h4.2, by rw [h4.1, h4.2]⟩
  · obtain ⟨t, d⟩ := q
    rintro ⟨h1, h2, h3⟩
    simp only [] at h1 h2 h3
    unfold ConstantPrice.swapWithoutFees mapZeroToNone
    cases dir with
    | AtoB =>
      simp only [] at h3 ⊢
      obtain ⟨h3, h4, h5⟩ := h3
      have hp : p.toNat ≠ 0 := by
        intro h0
        rw [h0] at h5
        omega
      have hd : s / p.toNat = d := by
        rw [Nat.div_eq_iff (Nat.pos_of_ne_zero hp), Nat.mul_comm d]
        omega
      have hm : s % p.toNat = s - t := by
        have := Nat.div_add_mod s p.toNat
        rw [hd] at this
        omega
      rw [cdiv_ok hp, Res.ok_bind, show crem s p.toNat = .ok (s % p.toNat) from if_neg hp,
        Res.ok_bind, hm, hd]
      by_cases hr : 0 < s - t
      · rw [if_pos hr, csub_ok (by omega), Res.ok_bind, Res.ok_bind]
        simp only []
        have e : s - (s - t) = t := by omega
        rw [e, if_neg (by omega), Res.ok_bind, if_neg (by omega), Res.ok_bind]
      · have e : s = t := by omega
        rw [if_neg hr, Res.ok_bind]
        simp only []
        rw [e, if_neg (by omega), Res.ok_bind, if_neg (by omega), Res.ok_bind]
    | BtoA =>
      simp only [] at h3 ⊢
      obtain ⟨rfl, rfl⟩ := h3
      have hlt : t * p.toNat < U128 := by
        have : t * p.toNat < U64 * U64 := Nat.mul_lt_mul'' hs (UInt64.toNat_lt _)
        exact lt_of_lt_of_le this (by decide)
      rw [cmul_ok hlt, Res.ok_bind, Res.ok_bind]
      simp only []
      rw [Nat.mul_comm t, if_neg (by omega), Res.ok_bind, if_neg (by omega), Res.ok_bind]

theorem feeOf_ok {x : Nat} (hx : x < U64) {num den : UInt64}
    (hv : validateFraction num den = .ok ()) :
    calculateFee x num.toNat den.toNat = .ok (Spec.feeOf num.toNat den.toNat x) := by
  have := validateFraction_ok.1 hv
  exact calculateFee_eq (by exact hx) (UInt64.toNat_lt _) (by omega)

/-- A fee-charging swap, in terms of the swap without fees. -/
theorem Curve.swap_iff {e : SplEnv} {c : Curve} {s x y : Nat} {dir : TradeDirection} {f : Fees}
    (hv : f.validate = .ok ()) (hs : s < U64) (hx : x < U64) (r : SwapResult) :
    c.swap e s x y dir f = .ok r ↔
      ∃ tf of q, tf = Spec.feeOf f.trade_fee_numerator.toNat f.trade_fee_denominator.toNat s ∧
        of = Spec.feeOf f.owner_trade_fee_numerator.toNat f.owner_trade_fee_denominator.toNat s ∧
        tf + of ≤ s ∧ c.swapWithoutFees e (s - (tf + of)) x y dir = .ok q ∧
        q.destination_amount_swapped ≤ y ∧
        r = Spec.settled x y q.source_amount_swapped q.destination_amount_swapped tf of := by
  obtain ⟨v1, v2, _, _⟩ := Fees.validate_ok.1 hv
  have t1 : f.tradingFee s = .ok _ := feeOf_ok hs v1
  have t2 : f.ownerTradingFee s = .ok _ := feeOf_ok hs v2
  constructor
  · intro h
    obtain ⟨q, a1, a2, a3, a4, a5, a6, a7, a8, a9⟩ := Curve.swap_inv h
    rw [t1] at a1
    rw [t2] at a2
    have a1 := Res.ok.inj a1
    have a2 := Res.ok.inj a2
    refine ⟨r.trade_fee, r.owner_fee, q, a1.symm, a2.symm, a3, a4, by omega, ?_⟩
    obtain ⟨r1, r2, r3, r4, r5, r6⟩ := r
    simp only [] at *
    unfold Spec.settled
    rw [a9, a7, a5, a6]
  · rintro ⟨tf, of, q, rfl, rfl, h1, h2, h3, rfl⟩
    have hle := Curve.source_le h2
    unfold Curve.swap
    rw [t1, t2]
    generalize Spec.feeOf f.trade_fee_numerator.toNat _ s = tf at *
    generalize Spec.feeOf f.owner_trade_fee_numerator.toNat _ s = of at *
    have hU : U64 + U64 < U128 := by decide
    rw [Res.ok_bind, Res.ok_bind, cadd_ok (by omega), Res.ok_bind, csub_ok h1, Res.ok_bind, h2,
      Res.ok_bind, cadd_ok (by omega), Res.ok_bind, cadd_ok (by omega), Res.ok_bind, csub_ok h3,
      Res.ok_bind]
    rfl

theorem Offset.swap_iff_buy {e : SplEnv} {o : UInt64} {s x y : Nat} (hs : s < U64) (hx : 0 < x)
    (hx' : x < U64) (hy : y < U64) (q : SwapWithoutFeesResult) :
    Offset.swapWithoutFees e o s x y .AtoB = .ok q ↔ x * (y + o.toNat) < U128 ∧
      Spec.ProductTrade s x (y + o.toNat) q.source_amount_swapped q.destination_amount_swapped := by
  have hU : U64 + U64 < U128 := by decide
  have ho : o.toNat < U64 := UInt64.toNat_lt o
  unfold Offset.swapWithoutFees
  simp only []
  rw [Res.ok_bind, cadd_ok (by omega), Res.ok_bind]
  constructor
  · intro h
    have hi : x * (y + o.toNat) < U128 := by
      unfold ConstantProduct.swap at h
      rw [Res.bind_eq_ok] at h
      obtain ⟨_, hm, _⟩ := h
      exact (cmul_eq_ok.1 hm).1
    exact ⟨hi, (ConstantProduct.swap_iff hx hi (by omega) q).1 h⟩
  · rintro ⟨hi, h⟩
    exact (ConstantProduct.swap_iff hx hi (by omega) q).2 h

theorem Offset.swap_iff_sell {e : SplEnv} {o : UInt64} {s x y : Nat} (hs : s < U64)
    (hx : 0 < x + o.toNat) (hx' : x < U64) (q : SwapWithoutFeesResult) :
    Offset.swapWithoutFees e o s x y .BtoA = .ok q ↔ (x + o.toNat) * y < U128 ∧
      Spec.ProductTrade s (x + o.toNat) y q.source_amount_swapped q.destination_amount_swapped := by
  have hU : U64 + U64 + U64 < U128 := by decide
  have ho : o.toNat < U64 := UInt64.toNat_lt o
  unfold Offset.swapWithoutFees
  simp only []
  rw [cadd_ok (by omega), Res.ok_bind, Res.ok_bind]
  constructor
  · intro h
    have hi : (x + o.toNat) * y < U128 := by
      unfold ConstantProduct.swap at h
      rw [Res.bind_eq_ok] at h
      obtain ⟨_, hm, _⟩ := h
      exact (cmul_eq_ok.1 hm).1
    exact ⟨hi, (ConstantProduct.swap_iff hx hi (by omega) q).1 h⟩
  · rintro ⟨hi, h⟩
    exact (ConstantProduct.swap_iff hx hi (by omega) q).2 h

end Verif
