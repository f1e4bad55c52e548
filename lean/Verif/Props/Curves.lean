import Verif.Lemmas.Curves
import Mathlib.Data.Rat.Floor
import Mathlib.Tactic.NormNum

/-
C07, C15-C23, C42, C43: fees, fee-charging swaps and the value-based curves.
-/

namespace Verif
namespace Props
open Spec

/-- Sample environment and fee schedule (0.25% trade, 0.05% owner, 1% withdraw, 20% host). -/
def sampleSpl : SplEnv := ⟨true, fun _ => .none⟩
def sampleFees : Fees := ⟨25, 10000, 5, 10000, 1, 100, 20, 100⟩
def noFees : Fees := ⟨0, 0, 0, 0, 0, 0, 0, 0⟩

/-! ### C07 -/

/-- C07.  A successful swap takes at most the offer, pays at most the pool's balance, and the
reported new balances are exactly old plus taken and old minus paid. -/
theorem C07_swap_bounds (e : SplEnv) (c : Curve) (s x y : Nat) (dir : TradeDirection) (f : Fees)
    (r : SwapResult) (h : c.swap e s x y dir f = .ok r) :
    r.source_amount_swapped ≤ s ∧ r.destination_amount_swapped ≤ y ∧
    r.new_swap_source_amount = x + r.source_amount_swapped ∧
    r.new_swap_destination_amount + r.destination_amount_swapped = y ∧
    r.trade_fee + r.owner_fee ≤ r.source_amount_swapped := by
  obtain ⟨q, _, _, h3, h4, h5, h6, h7, h8, h9⟩ := Curve.swap_inv h
  have := Curve.source_le h4
  exact ⟨by omega, h8, h7, by omega, by omega⟩

example : (Curve.linear ⟨2, 1, 3, 1⟩).swap sampleSpl 30 0 100 .AtoB noFees =
    .ok ⟨30, 96, 30, 4, 0, 0⟩ := by decide +kernel
example : (Curve.constantProduct).swap sampleSpl 1000 5000 7000 .AtoB sampleFees =
    .ok ⟨6000, 5837, 1000, 1163, 2, 1⟩ := by decide +kernel

/-! ### C15 -/

/-- C15.  A schedule validates exactly when every fraction is 0/0 or below one. -/
theorem C15_validate (f : Fees) : f.validate = .ok () ↔
    ∀ k : FeeKind, (k.num f = 0 ∧ k.den f = 0) ∨ k.num f < k.den f := by
  rw [Fees.validate_ok, validateFraction_ok, validateFraction_ok, validateFraction_ok,
    validateFraction_ok]
  constructor
  · rintro ⟨h1, h2, h3, h4⟩ k
    cases k
    · exact h1
    · exact h2
    · exact h3
    · exact h4
  · intro h
    exact ⟨h .trade, h .ownerTrade, h .ownerWithdraw, h .host⟩

/-- C15.  Every fee of a validated schedule: total, zero exactly for a zero rate or amount, never
above the amount, and otherwise the exact pro-rata fee rounded down but at least one unit. -/
theorem C15_fee (f : Fees) (hv : f.validate = .ok ()) (k : FeeKind) (x : Nat) (hx : x < 2 ^ 64) :
    ∃ fee, k.charge f x = .ok fee ∧ (fee = 0 ↔ k.num f = 0 ∨ x = 0) ∧ fee ≤ x ∧
      (k.num f ≠ 0 → x ≠ 0 →
        (fee : ℤ) = max 1 ⌊(x : ℚ) * (k.num f : ℚ) / (k.den f : ℚ)⌋) := by
  have hk := (C15_validate f).1 hv k
  have hn : k.num f < 18446744073709551616 := by cases k <;> exact UInt64.toNat_lt _
  have he : k.charge f x = .ok (if k.num f = 0 ∨ x = 0 then 0 else max 1 (x * k.num f / k.den f)) := by
    have hz : k.num f = 0 ∨ k.den f ≠ 0 := by omega
    cases k <;> exact calculateFee_eq hx hn hz
  refine ⟨_, he, ?_, ?_, ?_⟩
  · constructor
    · intro h
      by_contra hc
      rw [if_neg hc] at h
      omega
    · intro h; rw [if_pos h]
  · split
    · exact Nat.zero_le _
    · rename_i hc
      have hd : k.num f < k.den f := by omega
      have : x * k.num f / k.den f ≤ x := by
        apply Nat.div_le_of_le_mul
        rw [Nat.mul_comm]
        exact Nat.mul_le_mul_right _ (le_of_lt hd)
      omega
  · intro h1 h2
    rw [if_neg (by omega)]
    have hfl : ⌊(x : ℚ) * (k.num f : ℚ) / (k.den f : ℚ)⌋ = ((x * k.num f / k.den f : Nat) : ℤ) := by
      have := Rat.floor_intCast_div_natCast ((x * k.num f : Nat) : ℤ) (k.den f)
      push_cast at this ⊢
      exact this
    rw [hfl]
    push_cast
    rfl

example : sampleFees.validate = .ok () := by decide +kernel
example : sampleFees.tradingFee 1000 = .ok 2 ∧ sampleFees.ownerTradingFee 1000 = .ok 1 := by
  decide +kernel
example : (Fees.validate ⟨1, 1, 0, 0, 0, 0, 0, 0⟩) = .error .InvalidFee := by decide +kernel

/-! ### C16 -/

/-- C16.  Without fees a constant-price trade exchanges exactly equal values. -/
theorem C16_curve (e : SplEnv) (p : UInt64) (s x y : Nat) (dir : TradeDirection)
    (q : SwapWithoutFeesResult)
    (h : (Curve.constantPrice p).swapWithoutFees e s x y dir = .ok q)
    (hd : q.destination_amount_swapped ≤ y) :
    worthDir p.toNat dir (x + q.source_amount_swapped) (y - q.destination_amount_swapped) =
      worthDir p.toNat dir x y := by
  obtain ⟨_, _, _, hv⟩ := ConstantPrice.swap_ok h
  obtain ⟨z, rfl⟩ := Nat.exists_eq_add_of_le hd
  rw [Nat.add_sub_cancel_left]
  cases dir with
  | AtoB =>
    simp only [] at hv
    show x + q.source_amount_swapped + p.toNat * z =
      x + p.toNat * (q.destination_amount_swapped + z)
    rw [hv.1]; ring
  | BtoA =>
    simp only [] at hv
    show z + p.toNat * (x + q.source_amount_swapped) =
      q.destination_amount_swapped + z + p.toNat * x
    rw [hv.1]; ring

/-- C16.  With fees the value of the pool grows by exactly the fees. -/
theorem C16_swap (e : SplEnv) (p : UInt64) (s x y : Nat) (dir : TradeDirection) (f : Fees)
    (r : SwapResult) (h : (Curve.constantPrice p).swap e s x y dir f = .ok r) :
    worthDir p.toNat dir r.new_swap_source_amount r.new_swap_destination_amount =
      worthDir p.toNat dir x y + worthOf p.toNat dir (r.trade_fee + r.owner_fee) := by
  obtain ⟨q, _, _, _, h4, h5, h6, h7, h8, h9⟩ := Curve.swap_inv h
  have hc := C16_curve e p _ x y dir q h4 (by omega)
  rw [h7, h9, h5, h6]
  cases dir with
  | AtoB =>
    simp only [worthDir, worthOf, worth] at hc ⊢
    omega
  | BtoA =>
    simp only [worthDir, worthOf, worth] at hc ⊢
    rw [← hc]; ring

/-- C16.  No sequence of swaps, in any directions, reduces the value of the pool. -/
theorem C16_history (e : SplEnv) (p : UInt64) (f : Fees) (x y : Nat × Nat)
    (h : SwapHistory e (.constantPrice p) f x y) :
    worth p.toNat x.1 x.2 ≤ worth p.toNat y.1 y.2 := by
  induction h with
  | refl => exact le_refl _
  | tail _ hs ih =>
    refine le_trans ih ?_
    cases hs with
    | aToB A B s r hr =>
      have := C16_swap e p s A B .AtoB f r hr
      simp only [worthDir] at this
      simp only []
      omega
    | bToA A B s r hr =>
      have := C16_swap e p s B A .BtoA f r hr
      simp only [worthDir] at this
      simp only []
      omega

example : (Curve.constantPrice 7).swap sampleSpl 1000 5000 700 .AtoB sampleFees =
    .ok ⟨5997, 558, 997, 142, 2, 1⟩ := by decide +kernel
example : (Curve.constantPrice 7).swap sampleSpl 50 700 5000 .BtoA sampleFees =
    .ok ⟨750, 4664, 50, 336, 1, 1⟩ := by decide +kernel
example : SwapHistory sampleSpl (.constantPrice 7) sampleFees (5000, 700) (5997, 558) :=
  .single (.aToB 5000 700 1000 ⟨5997, 558, 997, 142, 2, 1⟩ (by decide +kernel))

/-! ### C17 -/

/-- C17.  A constant-product swap from a pool with a positive source balance never lowers the
product of the balances. -/
theorem C17_product (e : SplEnv) (s x y : Nat) (dir : TradeDirection) (f : Fees) (r : SwapResult)
    (h : Curve.constantProduct.swap e s x y dir f = .ok r) (hx : 0 < x) :
    x * y ≤ r.new_swap_source_amount * r.new_swap_destination_amount := by
  obtain ⟨q, _, _, _, h4, h5, h6, h7, h8, h9⟩ := Curve.swap_inv h
  obtain ⟨_, _, _, hp⟩ := ConstantProduct.swap_ok h4
  rw [h7, h9, h5, h6]
  exact le_trans (hp hx) (Nat.mul_le_mul_right _ (by omega))

/-- C17.  The positive-balance hypothesis is needed: with an empty source side the whole
destination balance is paid out for nothing. -/
theorem C17_empty_source :
    Curve.constantProduct.swap ⟨true, fun _ => .none⟩ 10 0 500 .AtoB noFees =
      .ok ⟨0, 0, 0, 500, 0, 0⟩ := by decide +kernel

/-- C17.  The offset curve: the same with token B shifted by the offset, in both directions. -/
theorem C17_offset (e : SplEnv) (o : UInt64) (s x y : Nat) (f : Fees) (r : SwapResult) :
    ((Curve.offset o).swap e s x y .AtoB f = .ok r → 0 < x →
      x * (y + o.toNat) ≤ r.new_swap_source_amount * (r.new_swap_destination_amount + o.toNat)) ∧
    ((Curve.offset o).swap e s x y .BtoA f = .ok r → 0 < x + o.toNat →
      (x + o.toNat) * y ≤ (r.new_swap_source_amount + o.toNat) * r.new_swap_destination_amount) := by
  constructor
  · intro h hx
    obtain ⟨q, _, _, _, h4, h5, h6, h7, h8, h9⟩ := Curve.swap_inv h
    have h4' : Offset.swapWithoutFees e o (s - (r.trade_fee + r.owner_fee)) x y .AtoB = .ok q := h4
    unfold Offset.swapWithoutFees at h4'
    simp only [] at h4'
    rw [Res.ok_bind, Res.bind_eq_ok] at h4'
    obtain ⟨sd, hsd, h4'⟩ := h4'
    obtain ⟨_, _, _, hp⟩ := ConstantProduct.swap_ok h4'
    have e1 := (cadd_eq_ok.1 hsd).2
    rw [h7, h9, h5, h6, ← e1]
    refine le_trans (hp hx) ?_
    have e2 : y - q.destination_amount_swapped + o.toNat = sd - q.destination_amount_swapped := by
      omega
    rw [e2]
    exact Nat.mul_le_mul_right _ (by omega)
  · intro h hx
    obtain ⟨q, _, _, _, h4, h5, h6, h7, h8, h9⟩ := Curve.swap_inv h
    have h4' : Offset.swapWithoutFees e o (s - (r.trade_fee + r.owner_fee)) x y .BtoA = .ok q := h4
    unfold Offset.swapWithoutFees at h4'
    simp only [] at h4'
    rw [Res.bind_eq_ok] at h4'
    obtain ⟨ss, hss, h4'⟩ := h4'
    rw [Res.ok_bind] at h4'
    obtain ⟨_, _, _, hp⟩ := ConstantProduct.swap_ok h4'
    have e1 := (cadd_eq_ok.1 hss).2
    rw [h7, h9, h5, h6]
    rw [← e1] at hx ⊢
    refine le_trans (hp hx) ?_
    exact Nat.mul_le_mul_right _ (by omega)

/-- C17.  Trading back everything received never returns more than was paid. -/
theorem C17_no_profit (e : SplEnv) (s x y : Nat) (dir dir' : TradeDirection) (f f' : Fees)
    (r r' : SwapResult) (hx : 0 < x)
    (h : Curve.constantProduct.swap e s x y dir f = .ok r)
    (h' : Curve.constantProduct.swap e r.destination_amount_swapped
      r.new_swap_destination_amount r.new_swap_source_amount dir' f' = .ok r') :
    r'.destination_amount_swapped ≤ r.source_amount_swapped := by
  have h1 := C17_product e s x y dir f r h hx
  obtain ⟨_, b2, b3, b4, _⟩ := C07_swap_bounds e _ s x y dir f r h
  have hd0 : r.destination_amount_swapped ≠ 0 := by
    obtain ⟨q, _, _, _, h4, _, h6, _⟩ := Curve.swap_inv h
    rw [h6]
    exact (ConstantProduct.swap_ok h4).2.2.1
  have hy' : 0 < y := by omega
  have hy : 0 < r.new_swap_destination_amount := by
    have : 0 < r.new_swap_source_amount * r.new_swap_destination_amount :=
      lt_of_lt_of_le (Nat.mul_pos hx hy') h1
    exact Nat.pos_of_mul_pos_left this
  have h2 := C17_product e _ _ _ dir' f' r' h' hy
  obtain ⟨c1, c2, c3, c4, _⟩ := C07_swap_bounds e _ _ _ _ dir' f' r' h'
  have hle : r'.new_swap_source_amount ≤ y := by omega
  have h3 : x * y ≤ r'.new_swap_destination_amount * y := by
    calc x * y ≤ r.new_swap_source_amount * r.new_swap_destination_amount := h1
      _ = r.new_swap_destination_amount * r.new_swap_source_amount := Nat.mul_comm _ _
      _ ≤ r'.new_swap_source_amount * r'.new_swap_destination_amount := h2
      _ ≤ y * r'.new_swap_destination_amount := Nat.mul_le_mul_right _ hle
      _ = _ := Nat.mul_comm _ _
  have := Nat.le_of_mul_le_mul_right h3 hy'
  omega

theorem mul_pos_split {u v u' v' : Nat} (hu : 0 < u) (hv : 0 < v) (hle : u * v ≤ u' * v') :
    0 < u' ∧ 0 < v' := by
  have : 0 < u' * v' := lt_of_lt_of_le (Nat.mul_pos hu hv) hle
  exact ⟨Nat.pos_of_mul_pos_right this, Nat.pos_of_mul_pos_left this⟩

/-- C17.  Over any sequence of swaps that starts with both balances positive the product never
falls, and no side is ever emptied. -/
theorem C17_history (e : SplEnv) (f : Fees) (x y : Nat × Nat)
    (h : SwapHistory e .constantProduct f x y) (h1 : 0 < x.1) (h2 : 0 < x.2) :
    x.1 * x.2 ≤ y.1 * y.2 ∧ 0 < y.1 ∧ 0 < y.2 := by
  induction h with
  | refl => exact ⟨le_refl _, h1, h2⟩
  | tail _ hs ih =>
    obtain ⟨i1, i2, i3⟩ := ih
    cases hs with
    | aToB A B s r hr =>
      have := C17_product e s A B .AtoB f r hr i2
      exact ⟨le_trans i1 this, mul_pos_split i2 i3 this⟩
    | bToA A B s r hr =>
      have := C17_product e s B A .BtoA f r hr i3
      obtain ⟨p1, p2⟩ := mul_pos_split i3 i2 this
      refine ⟨?_, p2, p1⟩
      show x.1 * x.2 ≤ _ * _
      rw [Nat.mul_comm r.new_swap_destination_amount]
      rw [Nat.mul_comm] at this
      exact le_trans i1 this

/-- C17.  The offset curve over any sequence of swaps, starting with some token A. -/
theorem C17_offset_history (e : SplEnv) (o : UInt64) (f : Fees) (x y : Nat × Nat)
    (h : SwapHistory e (.offset o) f x y) (h1 : 0 < x.1) (h2 : 0 < x.2 + o.toNat) :
    x.1 * (x.2 + o.toNat) ≤ y.1 * (y.2 + o.toNat) ∧ 0 < y.1 ∧ 0 < y.2 + o.toNat := by
  induction h with
  | refl => exact ⟨le_refl _, h1, h2⟩
  | tail _ hs ih =>
    obtain ⟨i1, i2, i3⟩ := ih
    cases hs with
    | aToB A B s r hr =>
      have := (C17_offset e o s A B f r).1 hr i2
      exact ⟨le_trans i1 this, mul_pos_split i2 i3 this⟩
    | bToA A B s r hr =>
      have := (C17_offset e o s B A f r).2 hr i3
      obtain ⟨p1, p2⟩ := mul_pos_split i3 i2 this
      refine ⟨?_, p2, p1⟩
      show x.1 * (x.2 + o.toNat) ≤ _ * (_ + _)
      rw [Nat.mul_comm r.new_swap_destination_amount]
      rw [Nat.mul_comm] at this
      exact le_trans i1 this

example : (Curve.offset 1000).swap sampleSpl 100 5000 0 .AtoB noFees =
    .none := by decide +kernel
example : (Curve.offset 1000).swap sampleSpl 100 5000 200 .AtoB noFees =
    .ok ⟨5098, 177, 98, 23, 0, 0⟩ := by decide +kernel
example : Curve.constantProduct.swap sampleSpl 164 5836 6000 .BtoA noFees =
    .ok ⟨6000, 5836, 164, 164, 0, 0⟩ := by decide +kernel

/-! ### C18 -/

/-- C18 in full: a two-sided deposit never lowers the value per pool token. -/
def C18_statement : Prop :=
  ∀ (e : SplEnv) (p : UInt64) (pt S A B : Nat) (r : TradingTokenResult),
    (Curve.constantPrice p).poolTokensToTradingTokens e pt S A B .Ceiling = .ok r →
    0 < r.token_a_amount → 0 < r.token_b_amount →
    NoDilution (worth p.toNat A B) S
      (worth p.toNat (A + r.token_a_amount) (B + r.token_b_amount)) (S + pt)

/-- C18 is false: with total value 3 the code halves to 1, so doubling the supply costs 2. -/
theorem C18_false : ¬ C18_statement := by
  intro h
  have := h sampleSpl 1 1000000000 1000000000 2 1 ⟨1, 1⟩ (by decide +kernel) (by decide) (by decide)
  revert this
  decide +kernel

/-- C18, what holds: the loss is at most the parity of the pool value, spread over the supply. -/
theorem C18_deposit_partial (e : SplEnv) (p : UInt64) (pt S A B : Nat) (r : TradingTokenResult)
    (h : (Curve.constantPrice p).poolTokensToTradingTokens e pt S A B .Ceiling = .ok r)
    (ha : 0 < r.token_a_amount) (hb : 0 < r.token_b_amount) :
    worth p.toNat A B * (S + pt) ≤
      worth p.toNat (A + r.token_a_amount) (B + r.token_b_amount) * S +
        pt * (worth p.toNat A B % 2) := by
  obtain ⟨t, h1, h2, hS, h3, h4⟩ := ConstantPrice.toTrading_ceil h ha hb
  have e1 : worth p.toNat (A + r.token_a_amount) (B + r.token_b_amount) =
      worth p.toNat A B + r.token_a_amount + p.toNat * r.token_b_amount := by
    unfold worth; ring
  rw [e1]
  generalize worth p.toNat A B = V at *
  have e2 : V = 2 * t + V % 2 := by omega
  have e3 : V * (S + pt) = V * S + (2 * (pt * t) + pt * (V % 2)) := by
    rw [Nat.mul_add]
    congr 1
    conv_lhs => rw [e2]
    ring
  rw [e3, Nat.add_mul, Nat.add_mul]
  omega

/-- C18 exactly, when the pool value is even. -/
theorem C18_deposit_even_partial (e : SplEnv) (p : UInt64) (pt S A B : Nat) (r : TradingTokenResult)
    (h : (Curve.constantPrice p).poolTokensToTradingTokens e pt S A B .Ceiling = .ok r)
    (ha : 0 < r.token_a_amount) (hb : 0 < r.token_b_amount)
    (hev : worth p.toNat A B % 2 = 0) :
    NoDilution (worth p.toNat A B) S
      (worth p.toNat (A + r.token_a_amount) (B + r.token_b_amount)) (S + pt) := by
  have := C18_deposit_partial e p pt S A B r h ha hb
  rw [hev, Nat.mul_zero, Nat.add_zero] at this
  exact this

example : (Curve.constantPrice 7).poolTokensToTradingTokens sampleSpl 1000 30000 5000 700 .Ceiling =
    .ok ⟨165, 24⟩ ∧ worth 7 5000 700 % 2 = 0 := by decide +kernel

/-! ### C19, C20 -/

/-- C19, constant price.  Burning `pt` pool tokens for at most the computed amounts leaves the
value per remaining pool token no lower. -/
theorem C19_constant_price (e : SplEnv) (p : UInt64) (pt S A B : Nat) (r : TradingTokenResult)
    (h : (Curve.constantPrice p).poolTokensToTradingTokens e pt S A B .Floor = .ok r)
    (a b : Nat) (ha : a ≤ r.token_a_amount) (hb : b ≤ r.token_b_amount) (hA : a ≤ A) (hB : b ≤ B)
    (hS : pt ≤ S) :
    NoDilution (worth p.toNat A B) S (worth p.toNat (A - a) (B - b)) (S - pt) := by
  obtain ⟨t, h1, h2, _, h3, h4⟩ := ConstantPrice.toTrading_floor (e := e) h
  obtain ⟨A', rfl⟩ := Nat.exists_eq_add_of_le hA
  obtain ⟨B', rfl⟩ := Nat.exists_eq_add_of_le hB
  obtain ⟨S', rfl⟩ := Nat.exists_eq_add_of_le hS
  rw [Nat.add_sub_cancel_left, Nat.add_sub_cancel_left, Nat.add_sub_cancel_left]
  have h5 : a * (pt + S') ≤ pt * t := le_trans (Nat.mul_le_mul_right _ ha) h3
  have h6 : p.toNat * b * (pt + S') ≤ pt * t :=
    le_trans (Nat.mul_le_mul_right _ (Nat.mul_le_mul_left _ hb)) h4
  have e1 : worth p.toNat (a + A') (b + B') = worth p.toNat A' B' + (a + p.toNat * b) := by
    unfold worth; ring
  have h7 : pt * (2 * t) ≤ pt * worth p.toNat (a + A') (b + B') := Nat.mul_le_mul_left _ h1
  unfold NoDilution
  generalize worth p.toNat (a + A') (b + B') = V at *
  have e2 : V * (pt + S') = worth p.toNat A' B' * (pt + S') + (a * (pt + S') + p.toNat * b * (pt + S')) := by
    rw [e1]; ring
  have e3 : V * (pt + S') = pt * V + V * S' := by ring
  have e4 : pt * (2 * t) = pt * t + pt * t := by ring
  omega

/-- The conversion of the constant-product family, with the balances it works on. -/
def productBalances : Curve → Nat → Nat → Option (Nat × Nat)
  | .constantProduct, A, B => some (A, B)
  | .stable _, A, B => some (A, B)
  | .offset o, A, B => some (A, B + o.toNat)
  | _, _, _ => none

theorem product_conversion {e : SplEnv} {c : Curve} {A B A' B' : Nat}
    (hc : productBalances c A B = some (A', B')) {pt S : Nat} {rd : RoundDirection}
    {r : TradingTokenResult} (h : c.poolTokensToTradingTokens e pt S A B rd = .ok r) :
    ConstantProduct.poolTokensToTradingTokens pt S A' B' rd = .ok r := by
  cases c with
  | constantProduct =>
    have := Option.some.inj hc
    rw [Prod.mk.injEq] at this
    rw [← this.1, ← this.2]; exact h
  | constantPrice p => cases hc
  | stable a =>
    have := Option.some.inj hc
    rw [Prod.mk.injEq] at this
    rw [← this.1, ← this.2]; exact h
  | offset o =>
    have := Option.some.inj hc
    rw [Prod.mk.injEq] at this
    have h' : Offset.poolTokensToTradingTokens o pt S A B rd = .ok r := h
    unfold Offset.poolTokensToTradingTokens at h'
    rw [Res.bind_eq_ok] at h'
    obtain ⟨sb, hsb, h'⟩ := h'
    have e1 := (cadd_eq_ok.1 hsb).2
    rw [← this.1, ← this.2, ← e1]; exact h'
  | linear l => cases hc

/-- C19, C20, C43: burning pool tokens on a constant-product, stable or offset pool pays at most
the proportional share of each side, so each remaining pool token is backed by at least as much. -/
theorem C19_product (e : SplEnv) (c : Curve) (pt S A B A' B' : Nat) (r : TradingTokenResult)
    (hc : productBalances c A B = some (A', B'))
    (h : c.poolTokensToTradingTokens e pt S A B .Floor = .ok r) (hS : pt ≤ S)
    (a b : Nat) (ha : a ≤ r.token_a_amount) (hb : b ≤ r.token_b_amount) :
    r.token_a_amount ≤ A' ∧ r.token_b_amount ≤ B' ∧
    NoDilution A' S (A' - a) (S - pt) ∧ NoDilution B' S (B' - b) (S - pt) := by
  obtain ⟨hSp, h1, h2⟩ := ConstantProduct.toTrading_ok (product_conversion hc h)
  have key : ∀ X x u : Nat, x * S ≤ pt * X → u ≤ x → x ≤ X ∧ NoDilution X S (X - u) (S - pt) := by
    intro X x u hx hu
    have hxX : x ≤ X := by
      have : x * S ≤ X * S := le_trans hx (by
        rw [Nat.mul_comm X]; exact Nat.mul_le_mul_right _ hS)
      exact Nat.le_of_mul_le_mul_right this hSp
    refine ⟨hxX, ?_⟩
    unfold NoDilution
    obtain ⟨X', rfl⟩ := Nat.exists_eq_add_of_le (le_trans hu hxX)
    obtain ⟨S', rfl⟩ := Nat.exists_eq_add_of_le hS
    rw [Nat.add_sub_cancel_left, Nat.add_sub_cancel_left]
    have h5 : u * (pt + S') ≤ pt * (u + X') := le_trans (Nat.mul_le_mul_right _ hu) hx
    have e3 : (u + X') * (pt + S') = pt * (u + X') + (u + X') * S' := by ring
    have e4 : (u + X') * (pt + S') = u * (pt + S') + X' * (pt + S') := by ring
    omega
  obtain ⟨k1, k2⟩ := key _ _ _ h1 ha
  obtain ⟨k3, k4⟩ := key _ _ _ h2 hb
  exact ⟨k1, k3, k2, k4⟩

/-- C20.  Minting pool tokens on a constant-product, stable or offset pool charges at least the
proportional share of each side (the processor rejects a zero charge). -/
theorem C20_deposit (e : SplEnv) (c : Curve) (pt S A B A' B' : Nat) (r : TradingTokenResult)
    (hc : productBalances c A B = some (A', B'))
    (h : c.poolTokensToTradingTokens e pt S A B .Ceiling = .ok r) :
    (0 < r.token_a_amount → pt * A' ≤ r.token_a_amount * S ∧
      NoDilution A' S (A' + r.token_a_amount) (S + pt)) ∧
    (0 < r.token_b_amount → pt * B' ≤ r.token_b_amount * S ∧
      NoDilution B' S (B' + r.token_b_amount) (S + pt)) := by
  obtain ⟨_, h1, h2⟩ := ConstantProduct.toTrading_ok (product_conversion hc h)
  have key : ∀ X x : Nat, pt * X ≤ x * S → NoDilution X S (X + x) (S + pt) := by
    intro X x hx
    unfold NoDilution
    rw [Nat.mul_add, Nat.add_mul, Nat.mul_comm X pt]
    omega
  exact ⟨fun h0 => ⟨h1 h0, key _ _ (h1 h0)⟩, fun h0 => ⟨h2 h0, key _ _ (h2 h0)⟩⟩

/-- C20.  Burning: at most the proportional share. -/
theorem C20_withdraw (e : SplEnv) (c : Curve) (pt S A B A' B' : Nat) (r : TradingTokenResult)
    (hc : productBalances c A B = some (A', B'))
    (h : c.poolTokensToTradingTokens e pt S A B .Floor = .ok r) :
    r.token_a_amount * S ≤ pt * A' ∧ r.token_b_amount * S ≤ pt * B' :=
  (ConstantProduct.toTrading_ok (product_conversion hc h)).2

example : Curve.constantProduct.poolTokensToTradingTokens sampleSpl 1000 30000 5000 700 .Ceiling =
    .ok ⟨167, 24⟩ := by decide +kernel
example : (Curve.offset 300).poolTokensToTradingTokens sampleSpl 1000 30000 5000 700 .Floor =
    .ok ⟨166, 33⟩ := by decide +kernel
example : (Curve.constantPrice 7).poolTokensToTradingTokens sampleSpl 1000 30000 5000 700 .Floor =
    .ok ⟨165, 23⟩ := by decide +kernel

/-! ### C21, C22, C23 -/

/-- C21.  A single-sided deposit never lowers the value per pool token. -/
theorem C21_deposit_single (e : SplEnv) (p : UInt64) (s m : Nat) (q : Pool) (dir : TradeDirection)
    (f : Fees) (h : (Curve.constantPrice p).depositSingle e s q.A q.B q.S dir f = .ok m) :
    NoDilution (worth p.toNat q.A q.B) q.S
      (worth p.toNat (q.trade dir s 0 m).A (q.trade dir s 0 m).B) (q.S + m) := by
  have hw : worth p.toNat (q.trade dir s 0 m).A (q.trade dir s 0 m).B =
      worth p.toNat q.A q.B + worthOf p.toNat dir s := by
    cases dir <;> simp only [Pool.trade, worth, worthOf, Nat.sub_zero] <;> ring
  rw [hw]
  unfold Curve.depositSingle at h
  split at h
  · have := Res.ok.inj h
    rw [← this]
    unfold NoDilution
    exact Nat.mul_le_mul_right _ (Nat.le_add_right _ _)
  · rw [Res.bind_eq_ok] at h
    obtain ⟨half, _, h⟩ := h
    rw [Res.bind_eq_ok] at h
    obtain ⟨fee, _, h⟩ := h
    rw [Res.bind_eq_ok] at h
    obtain ⟨less, hl, h⟩ := h
    have e1 := (csub_eq_ok.1 hl).2
    obtain ⟨hm, _⟩ := ConstantPrice.trading_floor (e := e) h
    have h1 : worthOf p.toNat dir less ≤ worthOf p.toNat dir s := by
      cases dir
      · show less ≤ s; omega
      · exact Nat.mul_le_mul_left _ (by omega)
    have h2 : worth p.toNat q.A q.B * m ≤ q.S * worthOf p.toNat dir less := by
      rw [hm]; exact Nat.mul_div_le _ _
    have h3 : q.S * worthOf p.toNat dir less ≤ q.S * worthOf p.toNat dir s :=
      Nat.mul_le_mul_left _ h1
    unfold NoDilution
    rw [Nat.mul_add, Nat.add_mul, Nat.mul_comm (worthOf p.toNat dir s)]
    omega

example : (Curve.constantPrice 7).depositSingle sampleSpl 100 5000 700 30000 .AtoB sampleFees =
    .ok 300 := by decide +kernel

/-- Withdrawing `x` from the traded side and burning `m`. -/
def takeOut (q : Pool) (dir : TradeDirection) (x m : Nat) : Pool :=
  match dir with
  | .AtoB => ⟨q.A - x, q.B, q.S - m⟩
  | .BtoA => ⟨q.A, q.B - x, q.S - m⟩

/-- C22 in full: an exact single-sided withdrawal never lowers the value per pool token. -/
def C22_statement : Prop :=
  ∀ (e : SplEnv) (p : UInt64) (s m : Nat) (q : Pool) (dir : TradeDirection) (f : Fees),
    f.validate = .ok () →
    (Curve.constantPrice p).withdrawSingle e s q.A q.B q.S dir f = .ok m → 0 < m → m ≤ q.S →
    s ≤ q.src dir →
    NoDilution (worth p.toNat q.A q.B) q.S
      (worth p.toNat (takeOut q dir s m).A (takeOut q dir s m).B) (takeOut q dir s m).S

/-- C22 is false: the trade fee is subtracted before the burn is computed, so a withdrawer burns
too few pool tokens (here 8 of 100 for a tenth of the pool). -/
theorem C22_false : ¬ C22_statement := by
  intro h
  have := h sampleSpl 1 10 8 ⟨50, 50, 100⟩ .AtoB ⟨1, 2, 0, 0, 0, 0, 0, 0⟩ (by decide +kernel)
    (by decide +kernel) (by decide) (by decide) (by decide)
  revert this
  decide +kernel

theorem worth_takeOut {p : Nat} {q : Pool} {dir : TradeDirection} {x : Nat} (m : Nat)
    (hx : x ≤ q.src dir) :
    worth p (takeOut q dir x m).A (takeOut q dir x m).B + worthOf p dir x = worth p q.A q.B := by
  cases dir with
  | AtoB =>
    have hx' : x ≤ q.A := hx
    simp only [takeOut, worth, worthOf]
    omega
  | BtoA =>
    have hx' : x ≤ q.B := hx
    simp only [takeOut, worth, worthOf]
    obtain ⟨z, hz⟩ := Nat.exists_eq_add_of_le hx'
    rw [hz, Nat.add_sub_cancel_left]
    ring

theorem withdrawSingle_inv {e : SplEnv} {p : UInt64} {s A B S m : Nat} {dir : TradeDirection}
    {f : Fees} (h : (Curve.constantPrice p).withdrawSingle e s A B S dir f = .ok m) :
    (s = 0 ∧ m = 0) ∨ ∃ fee d, f.tradingFee (max 1 (s / 2)) = .ok fee ∧ fee ≤ s ∧
      Spl.ceilDiv e.ceilZeroHalf U256 (S * worthOf p.toNat dir (s - fee)) (worth p.toNat A B) =
        .ok (m, d) := by
  unfold Curve.withdrawSingle at h
  split at h
  · rename_i h0
    exact Or.inl ⟨h0, (Res.ok.inj h).symm⟩
  · right
    rw [Res.bind_eq_ok] at h
    obtain ⟨half, hh, h⟩ := h
    rw [Res.bind_eq_ok] at h
    obtain ⟨fee, hf, h⟩ := h
    rw [Res.bind_eq_ok] at h
    obtain ⟨less, hl, h⟩ := h
    have e0 := (cdiv_eq_ok.1 hh).2
    obtain ⟨h1, e1⟩ := csub_eq_ok.1 hl
    obtain ⟨d, hd⟩ := ConstantPrice.trading_ceil h
    refine ⟨fee, d, by rw [← e0]; exact hf, h1, ?_⟩
    rw [← e1]; exact hd

/-- C22, what holds for every schedule: the withdrawal is covered up to the value of the trade fee
on half of it, which the pool loses. -/
theorem C22_withdraw_partial (e : SplEnv) (p : UInt64) (s m : Nat) (q : Pool)
    (dir : TradeDirection) (f : Fees)
    (h : (Curve.constantPrice p).withdrawSingle e s q.A q.B q.S dir f = .ok m) (hm0 : 0 < m)
    (hm : m ≤ q.S) (hs : s ≤ q.src dir) :
    ∃ fee, f.tradingFee (max 1 (s / 2)) = .ok fee ∧
      NoDilution (worth p.toNat q.A q.B) q.S
        (worth p.toNat (takeOut q dir s m).A (takeOut q dir s m).B + worthOf p.toNat dir fee)
        (takeOut q dir s m).S := by
  rcases withdrawSingle_inv h with ⟨_, h0⟩ | ⟨fee, d, hf, hfs, hd⟩
  · omega
  · refine ⟨fee, hf, ?_⟩
    have h1 := ceilDiv_ge hd hm0
    have h2 := worth_takeOut (p := p.toNat) m hs
    have h3 : worthOf p.toNat dir s = worthOf p.toNat dir (s - fee) + worthOf p.toNat dir fee := by
      obtain ⟨z, rfl⟩ := Nat.exists_eq_add_of_le hfs
      rw [Nat.add_sub_cancel_left]
      cases dir
      · show fee + z = z + fee; omega
      · show p.toNat * (fee + z) = p.toNat * z + p.toNat * fee; ring
    have h4 : (takeOut q dir s m).S = q.S - m := by cases dir <;> rfl
    rw [h4]
    have h5 : worth p.toNat (takeOut q dir s m).A (takeOut q dir s m).B + worthOf p.toNat dir fee +
        worthOf p.toNat dir (s - fee) = worth p.toNat q.A q.B := by omega
    generalize worth p.toNat (takeOut q dir s m).A (takeOut q dir s m).B + worthOf p.toNat dir fee
      = W at *
    generalize worth p.toNat q.A q.B = V at *
    generalize worthOf p.toNat dir (s - fee) = g at *
    obtain ⟨S', hS'⟩ := Nat.exists_eq_add_of_le hm
    rw [hS', Nat.add_sub_cancel_left]
    rw [hS'] at h1
    unfold NoDilution
    have e1 : V * (m + S') = m * V + V * S' := by ring
    have e2 : V * (m + S') = W * (m + S') + (m + S') * g := by rw [← h5]; ring
    omega

/-- C22 exactly, when the schedule has no trade fee. -/
theorem C22_withdraw_no_fee_partial (e : SplEnv) (p : UInt64) (s m : Nat) (q : Pool)
    (dir : TradeDirection) (f : Fees) (hz : f.trade_fee_numerator = 0)
    (h : (Curve.constantPrice p).withdrawSingle e s q.A q.B q.S dir f = .ok m) (hm0 : 0 < m)
    (hm : m ≤ q.S) (hs : s ≤ q.src dir) :
    NoDilution (worth p.toNat q.A q.B) q.S
      (worth p.toNat (takeOut q dir s m).A (takeOut q dir s m).B) (takeOut q dir s m).S := by
  obtain ⟨fee, hf, hn⟩ := C22_withdraw_partial e p s m q dir f h hm0 hm hs
  have : fee = 0 := by
    unfold Fees.tradingFee calculateFee at hf
    rw [if_pos (Or.inl (by rw [hz]; rfl))] at hf
    exact (Res.ok.inj hf).symm
  rw [this] at hn
  have e0 : worthOf p.toNat dir 0 = 0 := by cases dir <;> simp [worthOf]
  rw [e0, Nat.add_zero] at hn
  exact hn

example : (Curve.constantPrice 7).withdrawSingle sampleSpl 100 5000 700 30000 .AtoB noFees =
    .ok 304 := by decide +kernel

/-- The pool tokens the processor mints for the owner fee of a swap. -/
theorem C23_owner_fee (e : SplEnv) (p : UInt64) (s m : Nat) (q : Pool) (dir : TradeDirection)
    (f : Fees) (r : SwapResult)
    (h : (Curve.constantPrice p).swap e s (q.src dir) (q.dst dir) dir f = .ok r)
    (hm : (Curve.constantPrice p).withdrawSingle e r.owner_fee
      (q.trade dir r.source_amount_swapped r.destination_amount_swapped 0).A
      (q.trade dir r.source_amount_swapped r.destination_amount_swapped 0).B q.S dir f = .ok m) :
    NoDilution (worth p.toNat q.A q.B) q.S
      (worth p.toNat (q.trade dir r.source_amount_swapped r.destination_amount_swapped m).A
        (q.trade dir r.source_amount_swapped r.destination_amount_swapped m).B) (q.S + (m - 1)) := by
  have hv := C16_swap e p s _ _ dir f r h
  obtain ⟨_, b2, b3, b4, _⟩ := C07_swap_bounds e _ s _ _ dir f r h
  have e1 : ∀ k, worth p.toNat (q.trade dir r.source_amount_swapped r.destination_amount_swapped k).A
      (q.trade dir r.source_amount_swapped r.destination_amount_swapped k).B =
      worth p.toNat q.A q.B + worthOf p.toNat dir (r.trade_fee + r.owner_fee) := by
    intro k
    have b5 : r.new_swap_destination_amount = q.dst dir - r.destination_amount_swapped := by omega
    rw [b3, b5] at hv
    cases dir <;> exact hv
  rw [e1]
  rcases withdrawSingle_inv hm with ⟨_, h0⟩ | ⟨fee, d, _, _, hd⟩
  · rw [h0]
    exact Nat.mul_le_mul_right _ (Nat.le_add_right _ _)
  · rw [e1] at hd
    have h1 := ceilDiv_lt hd
    have h2 : worthOf p.toNat dir (r.owner_fee - fee) ≤
        worthOf p.toNat dir (r.trade_fee + r.owner_fee) := by
      cases dir
      · show r.owner_fee - fee ≤ r.trade_fee + r.owner_fee; omega
      · exact Nat.mul_le_mul_left _ (by omega)
    have h3 := Nat.mul_le_mul_left q.S h2
    unfold NoDilution
    generalize worthOf p.toNat dir (r.trade_fee + r.owner_fee) = F at *
    generalize worthOf p.toNat dir (r.owner_fee - fee) = g at *
    generalize worth p.toNat q.A q.B = V at *
    generalize m - 1 = k at *
    have e2 : k * (V + F) = V * k + k * F := by ring
    have e3 : (V + F) * q.S = V * q.S + q.S * F := by ring
    rw [Nat.mul_add]
    have := Nat.zero_le (k * F)
    omega

example : (Curve.constantPrice 7).withdrawSingle sampleSpl 1 5997 558 30000 .AtoB noFees =
    .ok 4 := by decide +kernel

/-! ### C42 -/

theorem cp_step {e : SplEnv} {p : UInt64} {f : Fees} (hf : f.owner_trade_fee_numerator = 0)
    {x y : Pool} (h : CpStep e p f x y) :
    NoDilution (worth p.toNat x.A x.B) x.S (worth p.toNat y.A y.B) y.S ∧ (x.S = 0 → y.S = 0) := by
  cases h with
  | swap dir s m r hr hm =>
    have ho : r.owner_fee = 0 := by
      obtain ⟨_, _, h2, _⟩ := Curve.swap_inv hr
      unfold Fees.ownerTradingFee calculateFee at h2
      rw [if_pos (Or.inl (by rw [hf]; rfl))] at h2
      exact (Res.ok.inj h2).symm
    have hm0 : m = 0 := by
      rw [ho] at hm
      unfold Curve.withdrawSingle at hm
      rw [if_pos rfl] at hm
      exact (Res.ok.inj hm).symm
    have := C23_owner_fee e p s m x dir f r hr hm
    have e2 : (x.trade dir r.source_amount_swapped r.destination_amount_swapped m).S = x.S + m := by
      cases dir <;> rfl
    rw [e2]
    rw [hm0] at this ⊢
    exact ⟨this, fun h => h⟩
  | withdrawAll pt a b r hr ha hb hA hB hS =>
    exact ⟨C19_constant_price e p pt x.S x.A x.B r hr a b ha hb hA hB hS, fun h => by
      show x.S - pt = 0; omega⟩
  | depositSingle dir s m hm =>
    have e2 : (x.trade dir s 0 m).S = x.S + m := by cases dir <;> rfl
    rw [e2]
    refine ⟨C21_deposit_single e p s m x dir f hm, fun h => ?_⟩
    rw [h] at hm ⊢
    unfold Curve.depositSingle at hm
    split at hm
    · rw [← Res.ok.inj hm]
    · rw [Res.bind_eq_ok] at hm
      obtain ⟨_, _, hm⟩ := hm
      rw [Res.bind_eq_ok] at hm
      obtain ⟨_, _, hm⟩ := hm
      rw [Res.bind_eq_ok] at hm
      obtain ⟨_, _, hm⟩ := hm
      have := (ConstantPrice.trading_floor (e := e) hm).1
      rw [Nat.zero_mul, Nat.zero_div] at this
      omega
  | donate u v =>
    refine ⟨?_, fun h => h⟩
    apply Nat.mul_le_mul_right
    exact Nat.add_le_add (Nat.le_add_right _ _) (Nat.mul_le_mul_left _ (Nat.le_add_right _ _))

/-- C42.  Without an owner trading fee, no history of swaps, two-sided withdrawals, single-sided
deposits and donations lowers the value per outstanding pool token. -/
theorem C42_history (e : SplEnv) (p : UInt64) (f : Fees) (hf : f.owner_trade_fee_numerator = 0)
    (x y : Pool) (h : CpHistory e p f x y) :
    NoDilution (worth p.toNat x.A x.B) x.S (worth p.toNat y.A y.B) y.S := by
  have key : NoDilution (worth p.toNat x.A x.B) x.S (worth p.toNat y.A y.B) y.S ∧
      (x.S = 0 → y.S = 0) := by
    induction h with
    | refl => exact ⟨le_refl _, fun h => h⟩
    | @tail b c _ hs ih =>
      obtain ⟨i1, i2⟩ := ih
      obtain ⟨j1, j2⟩ := cp_step hf hs
      refine ⟨?_, fun h => j2 (i2 h)⟩
      unfold NoDilution at *
      rcases Nat.eq_zero_or_pos b.S with hb | hb
      · rw [j2 hb, Nat.mul_zero]; exact Nat.zero_le _
      · apply Nat.le_of_mul_le_mul_right _ hb
        calc worth p.toNat x.A x.B * c.S * b.S = worth p.toNat x.A x.B * b.S * c.S := by ring
          _ ≤ worth p.toNat b.A b.B * x.S * c.S := Nat.mul_le_mul_right _ i1
          _ = worth p.toNat b.A b.B * c.S * x.S := by ring
          _ ≤ worth p.toNat c.A c.B * b.S * x.S := Nat.mul_le_mul_right _ j1
          _ = _ := by ring
  exact key.1

example : CpHistory sampleSpl 7 ⟨25, 10000, 0, 0, 1, 100, 20, 100⟩ ⟨5000, 700, 30000⟩
    ⟨5996 - 165, 558 - 23, 29000⟩ :=
  .tail (.single (.swap _ .AtoB 1000 0 ⟨5996, 558, 996, 142, 2, 0⟩ (by decide +kernel)
    (by decide +kernel)))
    (.withdrawAll _ 1000 165 23 ⟨165, 23⟩ (by decide +kernel) (by decide) (by decide) (by decide)
      (by decide) (by decide))

/-! ### C43 -/

/-- C43.  A stable-curve swap takes exactly the offer less nothing, and pays at most the balance. -/
theorem C43_swap (e : SplEnv) (amp : UInt64) (s x y : Nat) (dir : TradeDirection) (f : Fees)
    (r : SwapResult) (h : (Curve.stable amp).swap e s x y dir f = .ok r) :
    r.source_amount_swapped = s ∧ r.destination_amount_swapped ≤ y := by
  obtain ⟨q, _, _, h3, h4, h5, h6, h7, h8, h9⟩ := Curve.swap_inv h
  refine ⟨?_, h8⟩
  have h4' : Stable.swapWithoutFees amp (s - (r.trade_fee + r.owner_fee)) x y = .ok q := h4
  unfold Stable.swapWithoutFees at h4'
  rw [Res.bind_eq_ok] at h4'
  obtain ⟨_, _, h4'⟩ := h4'
  rw [Res.bind_eq_ok] at h4'
  obtain ⟨_, _, h4'⟩ := h4'
  rw [Res.bind_eq_ok] at h4'
  obtain ⟨_, _, h4'⟩ := h4'
  rw [Res.bind_eq_ok] at h4'
  obtain ⟨_, _, h4'⟩ := h4'
  rw [Res.bind_eq_ok] at h4'
  obtain ⟨_, _, h4'⟩ := h4'
  have : q.source_amount_swapped = s - (r.trade_fee + r.owner_fee) := by rw [← Res.ok.inj h4']
  omega

/-- C43.  Stable pool-token conversions favour the pool in both roundings. -/
theorem C43_conversion (e : SplEnv) (amp : UInt64) (pt S A B : Nat) (r : TradingTokenResult) :
    ((Curve.stable amp).poolTokensToTradingTokens e pt S A B .Floor = .ok r →
      r.token_a_amount * S ≤ pt * A ∧ r.token_b_amount * S ≤ pt * B) ∧
    ((Curve.stable amp).poolTokensToTradingTokens e pt S A B .Ceiling = .ok r →
      (0 < r.token_a_amount → pt * A ≤ r.token_a_amount * S) ∧
      (0 < r.token_b_amount → pt * B ≤ r.token_b_amount * S)) :=
  ⟨fun h => C20_withdraw e (.stable amp) pt S A B A B r rfl h, fun h =>
    ⟨fun h0 => ((C20_deposit e (.stable amp) pt S A B A B r rfl h).1 h0).1,
     fun h0 => ((C20_deposit e (.stable amp) pt S A B A B r rfl h).2 h0).1⟩⟩

example : (Curve.stable 100).swap sampleSpl 1000 5000 7000 .AtoB noFees =
    .ok ⟨6000, 5998, 1000, 1002, 0, 0⟩ := by decide +kernel

end Props
end Verif
