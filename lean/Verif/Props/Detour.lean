import Verif.Lemmas.Detour
import Verif.Props.Shares

/-
C79: a one-sided deposit or withdrawal against the detour through a trade, on constant-price pools.
-/

namespace Verif
namespace Props

open Spec

/-- The full property, as the repository promises it: the one-sided way is never worse than the detour,
and the two agree within 0.5% (or one pool token). -/
def C79_statement : Prop :=
  ∀ (e : SplEnv) (p : UInt64) (q : Pool) (dir : TradeDirection),
    q.A < 2 ^ 64 → q.B < 2 ^ 64 → q.S < 2 ^ 64 →
    (∀ s h m m', s < 2 ^ 64 →
      (Curve.constantPrice p).calcDepositSingle e s q.A q.B q.S dir = .ok m →
      DepositDetour e (.constantPrice p) q dir s h m' → m' ≤ m ∧ Close m' m) ∧
    (∀ n x k, n ≤ q.S → WithdrawDetour e (.constantPrice p) q dir n x →
      (Curve.constantPrice p).calcWithdrawSingle e x q.A q.B q.S (otherWay dir) = .ok k →
      k ≤ n ∧ Close n k)

/-- C79 does not hold: with 5 pool tokens over 1 token A and 6 token B at price 1, depositing 7 token A
mints 5, trading 3 of them first mints 3. -/
theorem C79_false : ¬ C79_statement := by
  intro h
  obtain ⟨h1, _⟩ := h sampleSpl 1 ⟨1, 6, 5⟩ .AtoB (by decide) (by decide) (by decide)
  have := (h1 7 3 5 3 (by decide) (by decide +kernel)
    ⟨⟨3, 3⟩, ⟨4, 3, 5⟩, ⟨8, 3, 7⟩, 2, 1, by decide, by decide +kernel, by decide, by decide,
      by decide +kernel, by decide, by decide +kernel, by decide⟩).2
  exact absurd this (by decide)

/-- The withdrawal half fails on a pool of ordinary size too: at price 100 and with a thousand million
pool tokens over 1000000 token A and 10000 token B, burning 299000 pool tokens and trading the token A
yields 4 token B, which cost 200000 pool tokens when withdrawn directly. -/
theorem C79_withdraw_false :
    WithdrawDetour sampleSpl (.constantPrice 100) ⟨1000000, 10000, 1000000000⟩ .AtoB 299000 4 ∧
    (Curve.constantPrice 100).calcWithdrawSingle sampleSpl 4 1000000 10000 1000000000 .BtoA =
      .ok 200000 ∧ ¬ Close 299000 200000 :=
  ⟨⟨⟨299, 2⟩, ⟨200, 2⟩, by decide +kernel, by decide, by decide, by decide +kernel, by decide,
    by decide⟩, by decide +kernel, by decide⟩

/-- The repository's own check of the deposit half fails within the ranges its property test draws
from: the helper does not update the balances between the two deposits, and reports 1.25 times the
pool tokens of the one-sided deposit. -/
theorem C79_helper_false :
    ∃ m m', (Curve.constantPrice 1).calcDepositSingle sampleSpl 2 1 1 1000000000 .AtoB = .ok m ∧
      HelperDeposit sampleSpl (.constantPrice 1) ⟨1, 1, 1000000000⟩ .AtoB 2 m' ∧ ¬ Close m' m :=
  ⟨1000000000, 1250000000, by decide +kernel,
    ⟨⟨1, 1⟩, ⟨2, 0, 1000000000⟩, 500000000, 750000000, by decide +kernel, by decide, by decide,
      by decide +kernel, by decide +kernel, by decide⟩, by decide⟩

/-- C79 (part).  The one-sided deposit of any amount mints at least as many pool tokens as trading any
part of it and depositing both, and at most two more. -/
theorem C79_deposit_partial (e : SplEnv) (p : UInt64) (q : Pool) (dir : TradeDirection)
    (s h m m' : Nat)
    (hm : (Curve.constantPrice p).calcDepositSingle e s q.A q.B q.S dir = .ok m)
    (hd : DepositDetour e (.constantPrice p) q dir s h m') : m' ≤ m ∧ m ≤ m' + 2 := by
  obtain ⟨r, q₁, q₂, m₁, m₂, hs, hr, hle, e1, h1, e2, h2, rfl⟩ := hd
  obtain ⟨f0, g0⟩ := ConstantPrice.trading_floor (e := e) hm
  obtain ⟨f1, g1⟩ := ConstantPrice.trading_floor (e := e) h1
  obtain ⟨f2, g2⟩ := ConstantPrice.trading_floor (e := e) h2
  obtain ⟨k1, k2, k3, k4⟩ := ConstantPrice.swap_ok hr
  obtain ⟨t, d⟩ := r
  obtain ⟨A, B, S⟩ := q
  subst e1
  subst e2
  have p0 := Nat.pos_of_ne_zero g0
  have d0 := (down_iff p0).2 f0
  have d1 := (down_iff (Nat.pos_of_ne_zero g1)).2 f1
  have d2 := (down_iff (Nat.pos_of_ne_zero g2)).2 f2
  cases dir with
  | AtoB =>
    simp only [Pool.trade, Pool.dst, otherWay, worthOf, worth, Nat.add_zero,
      Nat.sub_zero] at *
    obtain ⟨u, rfl⟩ := Nat.exists_eq_add_of_le hle
    obtain ⟨v, rfl⟩ := Nat.exists_eq_add_of_le (Nat.le_trans k1 hs)
    rw [Nat.add_sub_cancel_left] at d1 d2
    rw [Nat.add_sub_cancel_left] at d1 d2
    obtain ⟨rfl, _⟩ := k4
    have ev : A + p.toNat * d + p.toNat * u = A + p.toNat * (d + u) := by
      rw [Nat.mul_add, Nat.add_assoc]
    have ev' : A + p.toNat * d + v + p.toNat * u = A + p.toNat * (d + u) + v := by omega
    rw [ev] at d1
    rw [ev'] at d2
    rw [Nat.add_comm (p.toNat * d) v] at d0
    refine detour_deposit p0 ?_ d0 d1 d2
    rw [Nat.mul_add]; omega
  | BtoA =>
    simp only [Pool.trade, Pool.dst, otherWay, worthOf, worth, Nat.add_zero,
      Nat.sub_zero] at *
    obtain ⟨rfl, rfl⟩ := k4
    obtain ⟨u, rfl⟩ := Nat.exists_eq_add_of_le hle
    obtain ⟨v, rfl⟩ := Nat.exists_eq_add_of_le (Nat.le_trans k1 hs)
    rw [Nat.add_sub_cancel_left] at d1 d2
    rw [Nat.add_sub_cancel_left] at d1 d2
    have ev : u + p.toNat * (B + t) = p.toNat * t + u + p.toNat * B := by
      rw [Nat.mul_add]; omega
    have ev' : u + p.toNat * (B + t + v) = p.toNat * t + u + p.toNat * B + p.toNat * v := by
      rw [Nat.mul_add, Nat.mul_add]; omega
    rw [ev] at d1
    rw [ev'] at d2
    rw [Nat.mul_add, Nat.add_comm (p.toNat * t) (p.toNat * v)] at d0
    exact detour_deposit p0 (by omega) d0 d1 d2

/-- C79 (part).  So the promise holds of deposits minting at least 400 pool tokens. -/
theorem C79_deposit_close_partial (e : SplEnv) (p : UInt64) (q : Pool) (dir : TradeDirection)
    (s h m m' : Nat)
    (hm : (Curve.constantPrice p).calcDepositSingle e s q.A q.B q.S dir = .ok m)
    (hd : DepositDetour e (.constantPrice p) q dir s h m') (hbig : 400 ≤ m') : Close m' m := by
  obtain ⟨h1, h2⟩ := C79_deposit_partial e p q dir s h m m' hm hd
  unfold Close
  omega

/-- C79 (part).  Withdrawing one side directly never costs more pool tokens than withdrawing both sides
and trading; what it can cost less is worth at most two token B and one pool token's rounding. -/
theorem C79_withdraw_partial (e : SplEnv) (p : UInt64) (q : Pool) (dir : TradeDirection)
    (n x k : Nat) (hA : q.A < 2 ^ 64) (hB : q.B < 2 ^ 64)
    (hd : WithdrawDetour e (.constantPrice p) q dir n x)
    (hk : (Curve.constantPrice p).calcWithdrawSingle e x q.A q.B q.S (otherWay dir) = .ok k) :
    k ≤ n ∧ (0 < k → (n - k) * worth p.toNat q.A q.B < n + 2 * (p.toNat * q.S)) := by
  obtain ⟨⟨a, b⟩, ⟨t, d⟩, hw, ha, hb, hr, hle, rfl⟩ := hd
  obtain ⟨s1, s2, _, s4, s5⟩ := (ConstantPrice.share_floor (e := e) hA hB _).1 hw
  obtain ⟨k1, k2, k3, k4⟩ := ConstantPrice.swap_ok hr
  obtain ⟨A, B, S⟩ := q
  obtain ⟨u1, u2⟩ := detour_withdraw s4 s5
  rcases Nat.eq_zero_or_pos k with rfl | hk0
  · exact ⟨Nat.zero_le _, fun h => absurd h (Nat.lt_irrefl _)⟩
  obtain ⟨v1, v2⟩ := ConstantPrice.trading_ceil_up (e := e) hk hk0
  simp only [] at *
  -- the withdrawn value of the one token, against that of both
  have key : worthOf p.toNat (otherWay dir) (kept dir ⟨a, b⟩ + d) ≤ a + p.toNat * b ∧
      a + p.toNat * b + 1 ≤ worthOf p.toNat (otherWay dir) (kept dir ⟨a, b⟩ + d) + p.toNat := by
    cases dir with
    | AtoB =>
      simp only [given, kept, otherWay, worthOf] at *
      obtain ⟨e1, e2⟩ := k4
      have := Nat.lt_mul_div_succ a s2
      rw [← e2, Nat.mul_succ] at this
      rw [Nat.mul_add]
      omega
    | BtoA =>
      simp only [given, kept, otherWay, worthOf] at *
      obtain ⟨rfl, rfl⟩ := k4
      omega
  generalize worthOf p.toNat (otherWay dir) (kept dir ⟨a, b⟩ + d) = y at *
  generalize worth p.toNat A B = V at *
  obtain ⟨y1, y2⟩ := key
  have z1 : S * y ≤ S * (a + p.toNat * b) := Nat.mul_le_mul_left S y1
  have z2 : S * (a + p.toNat * b + 1) ≤ S * (y + p.toNat) := Nat.mul_le_mul_left S y2
  have hkn : k ≤ n := by
    have : k * V < (n + 1) * V := by rw [Nat.add_mul]; omega
    have := Nat.lt_of_mul_lt_mul_right this
    omega
  refine ⟨hkn, fun _ => ?_⟩
  rw [Nat.sub_mul]
  rw [Nat.mul_add] at z2
  rw [Nat.mul_add S y, Nat.mul_comm S p.toNat] at z2
  omega

/-- C79 (part).  So the promise holds of withdrawals of a positive cost worth at least 400 token B and
200 token A together. -/
theorem C79_withdraw_close_partial (e : SplEnv) (p : UInt64) (q : Pool) (dir : TradeDirection)
    (n x k : Nat) (hA : q.A < 2 ^ 64) (hB : q.B < 2 ^ 64)
    (hd : WithdrawDetour e (.constantPrice p) q dir n x)
    (hk : (Curve.constantPrice p).calcWithdrawSingle e x q.A q.B q.S (otherWay dir) = .ok k)
    (hk0 : 0 < k) (hbig : 200 * (n + 2 * (p.toNat * q.S)) ≤ n * worth p.toNat q.A q.B) :
    Close n k := by
  obtain ⟨h1, h2⟩ := C79_withdraw_partial e p q dir n x k hA hB hd hk
  have h2 := h2 hk0
  generalize worth p.toNat q.A q.B = V at *
  have : 200 * (n - k) * V < n * V := by rw [Nat.mul_assoc]; omega
  have := Nat.lt_of_mul_lt_mul_right this
  unfold Close
  omega

example : ∃ m, (Curve.constantPrice 3).calcDepositSingle sampleSpl 50 60 70 1000 .AtoB = .ok m ∧
    DepositDetour sampleSpl (.constantPrice 3) ⟨60, 70, 1000⟩ .AtoB 50 25 184 ∧ 184 ≤ m :=
  have h1 : (Curve.constantPrice 3).calcDepositSingle sampleSpl 50 60 70 1000 .AtoB = .ok 185 := by
    decide +kernel
  have h2 : DepositDetour sampleSpl (.constantPrice 3) ⟨60, 70, 1000⟩ .AtoB 50 25 184 :=
    ⟨⟨24, 8⟩, ⟨84, 62, 1000⟩, ⟨110, 62, 1096⟩, 96, 88, by decide, by decide +kernel, by decide,
      by decide, by decide +kernel, by decide, by decide +kernel, by decide⟩
  ⟨185, h1, h2, (C79_deposit_partial _ _ _ _ _ _ _ _ h1 h2).1⟩

example : Close 500000 500000 ∧
    WithdrawDetour sampleSpl (.constantPrice 100) ⟨1000000000, 10000000, 1000000000⟩ .BtoA 500000
      1000000 :=
  have h1 : WithdrawDetour sampleSpl (.constantPrice 100) ⟨1000000000, 10000000, 1000000000⟩ .BtoA
      500000 1000000 :=
    ⟨⟨500000, 5000⟩, ⟨5000, 500000⟩, by decide +kernel, by decide, by decide, by decide +kernel,
      by decide, by decide⟩
  ⟨C79_withdraw_close_partial sampleSpl 100 _ .BtoA 500000 1000000 500000 (by decide) (by decide) h1
    (by decide +kernel) (by decide) (by decide), h1⟩

end Props
end Verif
