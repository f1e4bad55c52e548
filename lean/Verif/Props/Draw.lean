import Verif.Props.Basket
import Verif.Spec.Draw

/-
C104 with exact one-sided withdrawals.
-/

namespace Verif
namespace Props
open Spec

theorem weaken_pow {X Y a b c k : Nat} (ha : 0 < a) (h : X * a ^ k ≤ Y * c ^ k) (hb : b * c ≤ a * a) :
    X * b ^ k ≤ Y * a ^ k := by
  refine Nat.le_of_mul_le_mul_right ?_ (Nat.pow_pos (n := k) ha)
  calc X * b ^ k * a ^ k = X * a ^ k * b ^ k := by ring
    _ ≤ Y * c ^ k * b ^ k := Nat.mul_le_mul_right _ h
    _ = Y * (b * c) ^ k := by rw [Nat.mul_pow]; ring
    _ ≤ Y * (a * a) ^ k := Nat.mul_le_mul_left _ (Nat.pow_le_pow_left hb _)
    _ = Y * a ^ k * a ^ k := by rw [Nat.mul_pow]; ring

theorem below_sq {a t : Nat} (ht : 0 < t) : (a - 2 * t ^ 2) * (a + 1) ≤ a * a := by
  have h1 : 1 ≤ t ^ 2 := Nat.pow_pos ht
  have h2 : a - 2 * t ^ 2 ≤ a - 1 := by omega
  refine le_trans (Nat.mul_le_mul_right _ h2) ?_
  rcases Nat.eq_zero_or_pos a with rfl | h
  · simp
  · obtain ⟨b, rfl⟩ : ∃ b, a = b + 1 := ⟨a - 1, by omega⟩
    rw [Nat.add_sub_cancel]
    nlinarith

theorem keepsDrawn_of {t o n : Nat} {x y : Pool} (ht : 0 < t) (h : Keeps o n x y) : KeepsDrawn t o n x y := by
  unfold Keeps at h
  unfold KeepsDrawn
  exact weaken_pow (by decide) h (below_sq (a := 1000000000000) ht)

theorem keepsDrawn_add {t o n : Nat} {x y : Pool} (k : Nat) (h : KeepsDrawn t o n x y) :
    KeepsDrawn t o (n + k) x y := by
  unfold KeepsDrawn at *
  rw [Nat.pow_add, Nat.pow_add, ← Nat.mul_assoc, ← Nat.mul_assoc]
  exact Nat.mul_le_mul h (Nat.pow_le_pow_left (Nat.sub_le _ _) _)

theorem keepsDrawn_trans {t o n k : Nat} {x y z : Pool} (h1 : KeepsDrawn t o n x y)
    (h2 : KeepsDrawn t o k y z) (hy : y.S = 0 → z.S = 0) : KeepsDrawn t o (n + k) x z := by
  unfold KeepsDrawn at *
  rcases Nat.eq_zero_or_pos y.S with h0 | h0
  · rw [hy h0]; simp
  · refine Nat.le_of_mul_le_mul_right ?_ (Nat.pow_pos (n := 2) h0)
    rw [Nat.pow_add, Nat.pow_add]
    generalize (1000000000000 - 2 * t ^ 2) ^ n = a at *
    generalize 1000000000000 ^ n = a' at *
    generalize (1000000000000 - 2 * t ^ 2) ^ k = b at *
    generalize 1000000000000 ^ k = b' at *
    calc x.A * (x.B + o) * z.S ^ 2 * (a * b) * y.S ^ 2
        = x.A * (x.B + o) * y.S ^ 2 * a * (z.S ^ 2 * b) := by ring
      _ ≤ y.A * (y.B + o) * x.S ^ 2 * a' * (z.S ^ 2 * b) := Nat.mul_le_mul_right _ h1
      _ = y.A * (y.B + o) * z.S ^ 2 * b * (x.S ^ 2 * a') := by ring
      _ ≤ z.A * (z.B + o) * y.S ^ 2 * b' * (x.S ^ 2 * a') := Nat.mul_le_mul_right _ h2
      _ = _ := by ring

theorem counted_free {f : Fees} (hf : f.trade_fee_numerator = 0) (s : Nat) : counted f s = s := by
  unfold counted feeOf
  rw [if_pos (Or.inl (by rw [hf]; rfl)), Nat.sub_zero]

/-- The arithmetic of one withdrawal: `v` falls to `v - s`, `S` to `d`. -/
theorem drawn_arith {a v u S d t : Nat} (h : a * a * (d ^ 2 * v) ≤ S ^ 2 * (a * a * u + (a + a) * v))
    (ha : 0 < a) (hS : S ≤ t * d) : v * d ^ 2 * (a - 2 * t ^ 2) ≤ u * S ^ 2 * a := by
  have h1 : a * (d ^ 2 * v) ≤ S ^ 2 * (a * u + 2 * v) := by
    refine Nat.le_of_mul_le_mul_left ?_ ha
    calc a * (a * (d ^ 2 * v)) = a * a * (d ^ 2 * v) := by ring
      _ ≤ _ := h
      _ = _ := by ring
  have h2 : S ^ 2 * (2 * v) ≤ 2 * t ^ 2 * (v * d ^ 2) := by
    calc S ^ 2 * (2 * v) ≤ (t * d) ^ 2 * (2 * v) := Nat.mul_le_mul_right _ (Nat.pow_le_pow_left hS 2)
      _ = _ := by ring
  rw [Nat.mul_sub]
  have e1 : v * d ^ 2 * a = a * (d ^ 2 * v) := by ring
  have e2 : S ^ 2 * (a * u + 2 * v) = u * S ^ 2 * a + S ^ 2 * (2 * v) := by ring
  have e3 : v * d ^ 2 * (2 * t ^ 2) = 2 * t ^ 2 * (v * d ^ 2) := by ring
  omega

theorem draw_step {e : SplEnv} {c : Curve} {f : Fees} {t o : Nat} (ho : productOffset c = some o)
    (hv : f.validate = .ok ()) (hf : f.owner_trade_fee_numerator = 0) (hf' : f.trade_fee_numerator = 0)
    (hsq : NearRoot e) (ht0 : 0 < t) (ht1 : 2 * t ^ 2 < 1000000000000) {k : Nat} {x y : Pool}
    (h : RootStep true e c f k x y) (hA : x.A < 2 ^ 64) (hB : x.B < 2 ^ 64) (hS : x.S < 2 ^ 64)
    (ht : x.S ≤ t * y.S) (hx : Alive o x) :
    KeepsDrawn t o (k + burnCount x y) x y ∧ Alive o y ∧ (x.S = 0 → y.S = 0) := by
  have old : RootStep false e c f k x y →
      KeepsDrawn t o (k + burnCount x y) x y ∧ Alive o y ∧ (x.S = 0 → y.S = 0) := by
    intro h'
    obtain ⟨h1, h2, h3⟩ := root_step ho hv hf hsq h' hx
    exact ⟨keepsDrawn_add _ (keepsDrawn_of ht0 h1), h2, h3⟩
  cases h with
  | swap q dir s m r hr hm => exact old (.swap _ dir s m r hr hm)
  | depositAll q pt r hd hr ha hb => exact old (.depositAll _ pt r hd hr ha hb)
  | withdrawAll q pt a b r hr ha hb hA hB hS => exact old (.withdrawAll _ pt a b r hr ha hb hA hB hS)
  | depositSingle q dir s m hs hA hB hS hm => exact old (.depositSingle _ dir s m hs hA hB hS hm)
  | donate q u v => exact old (.donate _ u v)
  | withdrawSingle q dir s m hsg hm hm0 hmS hs =>
    have eS : (x.drawn dir s m).S = x.S - m := by cases dir <;> rfl
    have hb : burnCount x (x.drawn dir s m) = 1 := if_pos (by rw [eS]; omega)
    have hs64 : s < 2 ^ 64 := by cases dir <;> exact lt_of_le_of_lt hs (by assumption)
    have hs0 : s ≠ 0 := by
      rintro rfl
      unfold Curve.withdrawSingle at hm
      rw [if_pos rfl] at hm
      have := Res.ok.inj hm
      omega
    rw [eS] at ht
    obtain ⟨hXA, hXB⟩ : 0 < x.A ∧ 0 < x.B + o := hx.resolve_left (by omega)
    obtain ⟨v, w, hv1, hvs, e1, e2, e3⟩ : ∃ v w, rootSide c dir x.A x.B = some v ∧ s ≤ v ∧
        x.A * (x.B + o) = v * w ∧
        (x.drawn dir s m).A * ((x.drawn dir s m).B + o) = (v - s) * w ∧ 0 < v * w := by
      have hpos := Nat.mul_pos hXA hXB
      cases c with
      | constantProduct =>
        have : o = 0 := by simpa [productOffset] using ho.symm
        subst this
        cases dir with
        | AtoB => exact ⟨x.A, x.B, rfl, hs, rfl, rfl, hpos⟩
        | BtoA => exact ⟨x.B, x.A, rfl, hs, Nat.mul_comm _ _, Nat.mul_comm _ _, Nat.mul_comm x.A _ ▸ hpos⟩
      | offset u =>
        have : o = u.toNat := by simpa [productOffset] using ho.symm
        subst this
        cases dir with
        | AtoB => exact ⟨x.A, x.B + u.toNat, rfl, hs, rfl, rfl, hpos⟩
        | BtoA =>
          have hs' : s ≤ x.B := hs
          refine ⟨x.B + u.toNat, x.A, rfl, by omega, Nat.mul_comm _ _, ?_, Nat.mul_comm x.A _ ▸ hpos⟩
          show x.A * (x.B - s + u.toNat) = (x.B + u.toNat - s) * x.A
          rw [Nat.mul_comm, show x.B - s + u.toNat = x.B + u.toNat - s by omega]
      | constantPrice p => simp [productOffset] at ho
      | stable a => simp [productOffset] at ho
      | linear l => simp [productOffset] at ho
    have fair := C59_root_withdraw_fair e c s x.A x.B x.S v m 1000000000000 dir f hv1 hv hs0 hs64 hA hB hS
      hmS (by rw [counted_free hf']; exact hvs) hsq hm
    rw [counted_free hf'] at fair
    have key := drawn_arith fair (by decide) ht
    have hw : 0 < w := Nat.pos_of_mul_pos_left e3
    have hv0 : 0 < v := Nat.pos_of_mul_pos_right e3
    have hd : 0 < x.S - m := by
      rcases Nat.eq_zero_or_pos (x.S - m) with h0 | h0
      · rw [h0] at ht; omega
      · exact h0
    refine ⟨?_, .inr ?_, fun h => by omega⟩
    · rw [hb]
      unfold KeepsDrawn
      rw [e1, e2, eS, Nat.zero_add, Nat.pow_one, Nat.pow_one]
      generalize 1000000000000 - 2 * t ^ 2 = b at *
      calc v * w * (x.S - m) ^ 2 * b = v * (x.S - m) ^ 2 * b * w := by ring
        _ ≤ (v - s) * x.S ^ 2 * 1000000000000 * w := Nat.mul_le_mul_right _ key
        _ = _ := by ring
    · have hlt : 0 < v - s := by
        rcases Nat.eq_zero_or_pos (v - s) with h0 | h0
        · rw [h0, Nat.zero_mul, Nat.zero_mul] at key
          have : 0 < v * (x.S - m) ^ 2 * (1000000000000 - 2 * t ^ 2) :=
            Nat.mul_pos (Nat.mul_pos hv0 (Nat.pow_pos hd)) (by omega)
          omega
        · exact h0
      have hp : 0 < (x.drawn dir s m).A * ((x.drawn dir s m).B + o) := by
        rw [e2]; exact Nat.mul_pos hlt hw
      exact ⟨Nat.pos_of_mul_pos_right hp, Nat.pos_of_mul_pos_left hp⟩

/-- C104, with exact one-sided withdrawals, on pools without fees on trades: if every operation leaves at
least the `t`-th part of the pool tokens, the square of the geometric mean of the balances per pool token
falls by at most `2t²` parts in 10¹² for each one-sided deposit and each withdrawal; and while pool tokens
are outstanding no side runs empty. -/
theorem C104_draw_partial (e : SplEnv) (c : Curve) (f : Fees) (t o n : Nat) (x y : Pool)
    (ho : productOffset c = some o) (hv : f.validate = .ok ()) (hf : f.owner_trade_fee_numerator = 0)
    (hf' : f.trade_fee_numerator = 0) (hsq : NearRoot e) (ht0 : 0 < t) (ht1 : 2 * t ^ 2 < 1000000000000)
    (hA : 0 < x.A) (hB : 0 < x.B + o) (h : DrawHistory t e c f n x y) :
    KeepsDrawn t o n x y ∧ (0 < y.S → 0 < y.A ∧ 0 < y.B + o) := by
  have key : KeepsDrawn t o n x y ∧ Alive o y := by
    induction h with
    | refl => exact ⟨keepsDrawn_of ht0 (keeps_self _ _ _), .inr ⟨hA, hB⟩⟩
    | tail _ hs a1 a2 a3 a4 ih =>
      obtain ⟨j1, j2, j3⟩ := draw_step ho hv hf hf' hsq ht0 ht1 hs a1 a2 a3 a4 (ih hA hB).2
      exact ⟨keepsDrawn_trans (ih hA hB).1 j1 j3, j2⟩
  refine ⟨key.1, fun hS => ?_⟩
  rcases key.2 with h0 | h0
  · omega
  · exact h0

/-- C104.  What a provider who holds `pt` pool tokens through such a history can take out, as in
`C104_share_partial`: `pt² · A · (B + o) · (1 - 2t² · 10⁻¹²)ⁿ < (a + 1) · (b + 1) · S²`. -/
theorem C104_draw_share_partial (e : SplEnv) (c : Curve) (f : Fees) (t o n : Nat) (x y : Pool) (pt : Nat)
    (r : TradingTokenResult) (ho : productOffset c = some o) (hv : f.validate = .ok ())
    (hf : f.owner_trade_fee_numerator = 0) (hf' : f.trade_fee_numerator = 0) (hsq : NearRoot e)
    (ht0 : 0 < t) (ht1 : 2 * t ^ 2 < 1000000000000) (hA : 0 < x.A) (hB : 0 < x.B + o) (hS : 0 < x.S)
    (h : DrawHistory t e c f n x y)
    (hr : c.poolTokensToTradingTokens e pt y.S y.A y.B .Floor = .ok r) :
    pt ^ 2 * (x.A * (x.B + o)) * (1000000000000 - 2 * t ^ 2) ^ n <
      (r.token_a_amount + 1) * (r.token_b_amount + 1) * x.S ^ 2 * 1000000000000 ^ n := by
  obtain ⟨hk, _⟩ := C104_draw_partial e c f t o n x y ho hv hf hf' hsq ht0 ht1 hA hB h
  obtain ⟨_, h3⟩ := paid_out ho hr
  unfold KeepsDrawn at hk
  have hXX : 0 < x.S ^ 2 * 1000000000000 ^ n := Nat.mul_pos (Nat.pow_pos hS) (Nat.pow_pos (by decide))
  apply Nat.lt_of_mul_lt_mul_right (a := y.S ^ 2)
  generalize (1000000000000 - 2 * t ^ 2) ^ n = k at *
  generalize 1000000000000 ^ n = k' at *
  calc pt ^ 2 * (x.A * (x.B + o)) * k * y.S ^ 2 = pt ^ 2 * (x.A * (x.B + o) * y.S ^ 2 * k) := by ring
    _ ≤ pt ^ 2 * (y.A * (y.B + o) * x.S ^ 2 * k') := Nat.mul_le_mul_left _ hk
    _ = pt * y.A * (pt * (y.B + o)) * (x.S ^ 2 * k') := by ring
    _ < (r.token_a_amount + 1) * y.S * ((r.token_b_amount + 1) * y.S) * (x.S ^ 2 * k') :=
      Nat.mul_lt_mul_of_pos_right h3 hXX
    _ = _ := by ring

/-- The withdrawal of `C104_false_free`, which lowers the mean, and a gift after it. -/
theorem draw_sample : DrawHistory 2 (Spl.library true) .constantProduct noFees 1
    ⟨10000000000000, 10000000000000, 10000000000000⟩ ⟨8099999999992, 10000000000000, 9000000000000⟩ :=
  .tail (k := 0) (n := 1) (.tail (k := 0) (n := 0) (.refl _)
    (.withdrawSingle ⟨10000000000000, 10000000000000, 10000000000000⟩ .AtoB 1900000000009
      1000000000000 rfl (by decide +kernel) (by decide) (by decide) (by decide))
    (by decide) (by decide) (by decide) (by decide))
    (.donate ⟨8099999999991, 10000000000000, 9000000000000⟩ 1 0)
    (by decide) (by decide) (by decide) (by decide)

example : KeepsDrawn 2 0 1 ⟨10000000000000, 10000000000000, 10000000000000⟩
    ⟨8099999999992, 10000000000000, 9000000000000⟩ ∧
    ¬ Keeps 0 0 ⟨10000000000000, 10000000000000, 10000000000000⟩
      ⟨8099999999992, 10000000000000, 9000000000000⟩ :=
  ⟨(C104_draw_partial (Spl.library true) .constantProduct noFees 2 0 1 _ _ rfl (by decide +kernel) rfl rfl
    (C105_near _) (by decide) (by decide) (by decide) (by decide) draw_sample).1, by decide +kernel⟩

/-- The holder of a hundredth of the pool tokens at the start, afterwards. -/
example : 100000000000 ^ 2 * (10000000000000 * (10000000000000 + 0)) * (1000000000000 - 2 * 2 ^ 2) ^ 1 <
    (89999999999 + 1) * (111111111111 + 1) * 10000000000000 ^ 2 * 1000000000000 ^ 1 :=
  C104_draw_share_partial (Spl.library true) .constantProduct noFees 2 0 1
    ⟨10000000000000, 10000000000000, 10000000000000⟩ ⟨8099999999992, 10000000000000, 9000000000000⟩
    100000000000 ⟨89999999999, 111111111111⟩ rfl (by decide +kernel) rfl rfl (C105_near _) (by decide)
    (by decide) (by decide) (by decide) (by decide) draw_sample (by decide +kernel)

end Props
end Verif
