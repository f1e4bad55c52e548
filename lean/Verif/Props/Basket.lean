import Verif.Props.Root
import Verif.Spec.Basket

/-
C104: what the providers of constant-product and offset pools keep over whole histories.
-/

namespace Verif.Props
open Verif Spec

theorem keeps_trans {o n k : Nat} {x y z : Pool} (h1 : Keeps o n x y) (h2 : Keeps o k y z)
    (hy : y.S = 0 → z.S = 0) : Keeps o (n + k) x z := by
  unfold Keeps at *
  rcases Nat.eq_zero_or_pos y.S with h0 | h0
  · rw [hy h0]; simp
  · refine Nat.le_of_mul_le_mul_right ?_ (Nat.pow_pos (n := 2) h0)
    rw [Nat.pow_add, Nat.pow_add]
    generalize 1000000000000 ^ n = a at *
    generalize 1000000000001 ^ n = a' at *
    generalize 1000000000000 ^ k = b at *
    generalize 1000000000001 ^ k = b' at *
    calc x.A * (x.B + o) * z.S ^ 2 * (a * b) * y.S ^ 2
        = x.A * (x.B + o) * y.S ^ 2 * a * (z.S ^ 2 * b) := by ring
      _ ≤ y.A * (y.B + o) * x.S ^ 2 * a' * (z.S ^ 2 * b) := Nat.mul_le_mul_right _ h1
      _ = y.A * (y.B + o) * z.S ^ 2 * b * (x.S ^ 2 * a') := by ring
      _ ≤ z.A * (z.B + o) * y.S ^ 2 * b' * (x.S ^ 2 * a') := Nat.mul_le_mul_right _ h2
      _ = _ := by ring

theorem keeps_zero {o : Nat} {x y : Pool} (h : x.A * (x.B + o) * y.S ^ 2 ≤ y.A * (y.B + o) * x.S ^ 2) :
    Keeps o 0 x y := by
  unfold Keeps
  simpa using h

theorem keeps_self (o n : Nat) (x : Pool) : Keeps o n x x := by
  unfold Keeps
  exact Nat.mul_le_mul_left _ (Nat.pow_le_pow_left (by decide) _)

theorem keeps_two {A B S A' B' S' : Nat} (h1 : NoDilution A S A' S') (h2 : NoDilution B S B' S') :
    A * B * S' ^ 2 ≤ A' * B' * S ^ 2 := by
  unfold NoDilution at *
  calc A * B * S' ^ 2 = (A * S') * (B * S') := by ring
    _ ≤ (A' * S) * (B' * S) := Nat.mul_le_mul h1 h2
    _ = _ := by ring

theorem productOffset_balances {c : Curve} {o : Nat} (h : productOffset c = some o) (A B : Nat) :
    productBalances c A B = some (A, B + o) := by
  cases c <;> simp [productOffset] at h <;> subst h <;> rfl

/-- A pool with pool tokens outstanding has both sides (token B counted with the offset). -/
def Alive (o : Nat) (q : Pool) : Prop := q.S = 0 ∨ (0 < q.A ∧ 0 < q.B + o)

theorem root_step {e : SplEnv} {c : Curve} {f : Fees} {o : Nat} (ho : productOffset c = some o)
    (hv : f.validate = .ok ()) (hf : f.owner_trade_fee_numerator = 0)
    (hsq : NearRoot e)
    {n : Nat} {x y : Pool} (h : RootStep false e c f n x y) (hx : Alive o x) :
    Keeps o n x y ∧ Alive o y ∧ (x.S = 0 → y.S = 0) := by
  cases h with
  | swap q dir s m r hr hm =>
    have hof : r.owner_fee = 0 := by
      obtain ⟨_, _, h2, _⟩ := Curve.swap_inv hr
      unfold Fees.ownerTradingFee calculateFee at h2
      rw [if_pos (Or.inl (by rw [hf]; rfl))] at h2
      exact (Res.ok.inj h2).symm
    have hm0 : m = 0 := by
      rw [hof] at hm
      unfold Curve.withdrawSingle at hm
      rw [if_pos rfl] at hm
      exact (Res.ok.inj hm).symm
    subst hm0
    have hS : (x.trade dir r.source_amount_swapped r.destination_amount_swapped 0).S = x.S := by
      cases dir <;> rfl
    obtain ⟨_, b2, b3, b4, _⟩ := C07_swap_bounds e c s _ _ dir f r hr
    rcases hx with h0 | ⟨hA, hB⟩
    · refine ⟨?_, .inl (by rw [hS, h0]), fun _ => by rw [hS, h0]⟩
      apply keeps_zero; rw [hS, h0]; simp
    · have key : x.A * (x.B + o) ≤
          (x.trade dir r.source_amount_swapped r.destination_amount_swapped 0).A *
          ((x.trade dir r.source_amount_swapped r.destination_amount_swapped 0).B + o) := by
        cases c with
        | constantProduct =>
          have : o = 0 := by simpa [productOffset] using ho.symm
          subst this
          cases dir with
          | AtoB =>
            have := C17_product e s _ _ .AtoB f r hr hA
            simp only [Pool.src, Pool.dst, Pool.trade, Nat.add_zero] at *
            rw [show x.B - r.destination_amount_swapped = r.new_swap_destination_amount by omega, ← b3]
            exact this
          | BtoA =>
            have := C17_product e s _ _ .BtoA f r hr hB
            simp only [Pool.src, Pool.dst, Pool.trade, Nat.add_zero] at *
            rw [show x.A - r.destination_amount_swapped = r.new_swap_destination_amount by omega, ← b3,
              Nat.mul_comm, Nat.mul_comm r.new_swap_destination_amount]
            exact this
        | offset u =>
          have : o = u.toNat := by simpa [productOffset] using ho.symm
          subst this
          cases dir with
          | AtoB =>
            have := (C17_offset e u s _ _ f r).1 hr hA
            simp only [Pool.src, Pool.dst, Pool.trade] at *
            rw [show x.B - r.destination_amount_swapped = r.new_swap_destination_amount by omega, ← b3]
            exact this
          | BtoA =>
            have := (C17_offset e u s _ _ f r).2 hr hB
            simp only [Pool.src, Pool.dst, Pool.trade] at *
            rw [show x.A - r.destination_amount_swapped = r.new_swap_destination_amount by omega, ← b3,
              Nat.mul_comm, Nat.mul_comm r.new_swap_destination_amount]
            exact this
        | constantPrice p => simp [productOffset] at ho
        | stable a => simp [productOffset] at ho
        | linear l => simp [productOffset] at ho
      refine ⟨?_, .inr ?_, fun h => by rw [hS, h]⟩
      · apply keeps_zero; rw [hS]; exact Nat.mul_le_mul_right _ key
      · exact mul_pos_split hA hB key
  | depositAll q pt r hd hr ha hb =>
    have hc := productOffset_balances ho x.A x.B
    obtain ⟨d1, d2⟩ := C20_deposit e c pt x.S x.A x.B _ _ r hc hr
    have hS : 0 < x.S := (ConstantProduct.toTrading_ok (product_conversion hc hr)).1
    refine ⟨?_, .inr ?_, fun h => by omega⟩
    · have := keeps_two (d1 ha).2 (d2 hb).2
      apply keeps_zero
      show x.A * (x.B + o) * (x.S + pt) ^ 2 ≤
        (x.A + r.token_a_amount) * (x.B + r.token_b_amount + o) * x.S ^ 2
      rw [show x.B + r.token_b_amount + o = x.B + o + r.token_b_amount by omega]
      exact this
    · rcases hx with h0 | ⟨hA, hB⟩
      · omega
      · exact ⟨Nat.add_pos_left hA _, by show 0 < x.B + r.token_b_amount + o; omega⟩
  | withdrawAll q pt a b r hr ha hb hA hB hS =>
    have hc := productOffset_balances ho x.A x.B
    obtain ⟨_, _, d1, d2⟩ := C19_product e c pt x.S x.A x.B _ _ r hc hr hS a b ha hb
    have hS0 : 0 < x.S := (ConstantProduct.toTrading_ok (product_conversion hc hr)).1
    have eB : x.B - b + o = x.B + o - b := by omega
    refine ⟨?_, ?_, fun h => by omega⟩
    · have := keeps_two d1 d2
      apply keeps_zero
      show x.A * (x.B + o) * (x.S - pt) ^ 2 ≤ (x.A - a) * (x.B - b + o) * x.S ^ 2
      rw [eB]; exact this
    · rcases Nat.eq_zero_or_pos (x.S - pt) with h0 | h0
      · exact .inl h0
      · rcases hx with h1 | ⟨h1, h2⟩
        · omega
        · refine .inr ⟨?_, ?_⟩
          · exact Nat.pos_of_mul_pos_right (lt_of_lt_of_le (Nat.mul_pos h1 h0) d1)
          · show 0 < x.B - b + o
            rw [eB]
            exact Nat.pos_of_mul_pos_right (lt_of_lt_of_le (Nat.mul_pos h2 h0) d2)
  | depositSingle q dir s m hs hA hB hS hm =>
    have eS : (x.trade dir s 0 m).S = x.S + m := by cases dir <;> rfl
    rcases Nat.eq_zero_or_pos s with h0 | h0
    · subst h0
      have hm0 : m = 0 := by
        unfold Curve.depositSingle at hm
        rw [if_pos rfl] at hm
        exact (Res.ok.inj hm).symm
      subst hm0
      have e0 : x.trade dir 0 0 0 = x := by cases dir <;> rfl
      rw [e0]
      exact ⟨keeps_self _ _ _, hx, fun h => h⟩
    obtain ⟨v, w, hv1, hA1⟩ : ∃ v w, rootSide c dir x.A x.B = some v ∧ (x.A * (x.B + o) = v * w ∧
        (x.trade dir s 0 m).A * ((x.trade dir s 0 m).B + o) = (v + s) * w) ∧
        (0 < x.A → 0 < x.B + o → 0 < (x.trade dir s 0 m).A ∧ 0 < (x.trade dir s 0 m).B + o) := by
      cases c with
      | constantProduct =>
        have : o = 0 := by simpa [productOffset] using ho.symm
        subst this
        cases dir with
        | AtoB => exact ⟨x.A, x.B, rfl, ⟨rfl, rfl⟩, fun h1 h2 => ⟨by simp only [Pool.trade]; omega, h2⟩⟩
        | BtoA =>
          exact ⟨x.B, x.A, rfl, ⟨Nat.mul_comm _ _, Nat.mul_comm _ _⟩, fun h1 h2 =>
            ⟨h1, by simp only [Pool.trade]; omega⟩⟩
      | offset u =>
        have : o = u.toNat := by simpa [productOffset] using ho.symm
        subst this
        cases dir with
        | AtoB =>
          exact ⟨x.A, x.B + u.toNat, rfl, ⟨rfl, rfl⟩, fun h1 h2 => ⟨by simp only [Pool.trade]; omega, h2⟩⟩
        | BtoA =>
          refine ⟨x.B + u.toNat, x.A, rfl, ⟨Nat.mul_comm _ _, ?_⟩, fun h1 h2 =>
            ⟨h1, by simp only [Pool.trade]; omega⟩⟩
          simp only [Pool.trade, Nat.sub_zero]
          rw [Nat.mul_comm]
          congr 1
          omega
      | constantPrice p => simp [productOffset] at ho
      | stable a => simp [productOffset] at ho
      | linear l => simp [productOffset] at ho
    obtain ⟨⟨e1, e2⟩, e3⟩ := hA1
    have fair := C59_root_deposit_fair e c s x.A x.B x.S v m 1000000000000 dir f hv1 hv (by omega) hs hA hB
      hS (le_refl _) hsq hm
    have hle := root_le (le_refl _) hsq
    have hz : x.S = 0 → m = 0 := by
      intro hS0
      obtain ⟨q, r, _, _, _, _, h5⟩ :=
        (C59_root_deposit e c s x.A x.B x.S v m dir f hv1 hv (by omega) hs hA hB hS hle).1 hm
      have := h5.1
      rw [hS0, Nat.zero_mul] at this
      omega
    refine ⟨?_, ?_, fun h => by rw [eS, h, hz h]⟩
    · unfold Keeps
      rw [e1, e2, eS, Nat.pow_one, Nat.pow_one]
      refine Nat.le_of_mul_le_mul_right ?_ (show 0 < 1000000000000 by decide)
      have h1 : (1000000000001 : Nat) = 1000000000000 + 1 := rfl
      rw [h1]
      generalize 1000000000000 = a at *
      calc v * w * (x.S + m) ^ 2 * a * a = a * a * ((x.S + m) ^ 2 * v) * w := by ring
        _ ≤ x.S ^ 2 * (a * a * (v + s) + a * v) * w := Nat.mul_le_mul_right _ fair
        _ ≤ x.S ^ 2 * (a * a * (v + s) + a * (v + s)) * w :=
          Nat.mul_le_mul_right _ (Nat.mul_le_mul_left _ (Nat.add_le_add_left
            (Nat.mul_le_mul_left _ (Nat.le_add_right _ _)) _))
        _ = _ := by ring
    · rcases hx with h1 | ⟨h1, h2⟩
      · exact .inl (by rw [eS, h1, hz h1])
      · exact .inr (e3 h1 h2)
  | donate q u v =>
    refine ⟨?_, ?_, fun h => h⟩
    · apply keeps_zero
      apply Nat.mul_le_mul_right
      exact Nat.mul_le_mul (Nat.le_add_right _ _) (by show x.B + o ≤ x.B + v + o; omega)
    · rcases hx with h0 | ⟨h1, h2⟩
      · exact .inl h0
      · exact .inr ⟨Nat.add_pos_left h1 _, by show 0 < x.B + v + o; omega⟩
  | withdrawSingle q dir s m hsg => cases hsg

/-- C104 in full: no history of trades, deposits and withdrawals of any kind lowers the geometric mean of
the balances per pool token, but for one part in 10¹² of its square for each one-sided deposit. -/
def C104_statement : Prop :=
  ∀ (e : SplEnv) (c : Curve) (f : Fees) (o n : Nat) (x y : Pool), productOffset c = some o →
    f.validate = .ok () → f.owner_trade_fee_numerator = 0 → NearRoot e → 0 < x.A → 0 < x.B + o →
    RootHistory true e c f n x y → Keeps o n x y

theorem RootHistory.single {b : Bool} {e : SplEnv} {c : Curve} {f : Fees} {n : Nat} {x y : Pool}
    (h : RootStep b e c f n x y) : RootHistory b e c f n x y := by
  have := RootHistory.tail (.refl x) h
  rwa [Nat.zero_add] at this

/-- C104 is false: as for the constant-price curve (C22), the trade fee makes an exact one-sided
withdrawal cheaper, not dearer.  With a fee of one half, 25 of 100 A are had for 10 of 100 pool tokens. -/
theorem C104_false : ¬ C104_statement := by
  intro h
  have := h (Spl.library true) .constantProduct ⟨1, 2, 0, 0, 0, 0, 0, 0⟩ 0 0 ⟨100, 100, 100⟩ ⟨75, 100, 90⟩ rfl
    (by decide +kernel) rfl (C105_near _) (by decide) (by decide)
    (RootHistory.single (.withdrawSingle ⟨100, 100, 100⟩ .AtoB 25 10 rfl (by decide +kernel) (by decide)
      (by decide) (by decide)))
  revert this
  decide +kernel

/-- C104 fails without any fees too, by very little: the part of the balance asked for is cut off after
twelve digits before the root is taken.  Of 10¹³ A, 9 units more than the burnt tenth of the pool tokens
pays for leave the pool. -/
theorem C104_false_free : ∃ x y : Pool, RootHistory true (Spl.library true) .constantProduct noFees 0 x y ∧
    0 < x.A ∧ 0 < x.B ∧ ¬ Keeps 0 0 x y :=
  ⟨⟨10000000000000, 10000000000000, 10000000000000⟩, ⟨8099999999991, 10000000000000, 9000000000000⟩,
    RootHistory.single (.withdrawSingle ⟨10000000000000, 10000000000000, 10000000000000⟩ .AtoB 1900000000009
      1000000000000 rfl (by decide +kernel) (by decide) (by decide) (by decide)),
    by decide, by decide, by decide +kernel⟩

/-- C104, what holds: without exact one-sided withdrawals, and without an owner trading fee, no history of
trades, deposits, two-sided withdrawals and gifts lowers the geometric mean of the balances (token B's
counted with the offset) per pool token, but for one part in 10¹² of its square for each one-sided deposit;
and while pool tokens are outstanding no side runs empty. -/
theorem C104_history_partial (e : SplEnv) (c : Curve) (f : Fees) (o n : Nat) (x y : Pool)
    (ho : productOffset c = some o) (hv : f.validate = .ok ()) (hf : f.owner_trade_fee_numerator = 0)
    (hsq : NearRoot e) (hA : 0 < x.A) (hB : 0 < x.B + o) (h : RootHistory false e c f n x y) :
    Keeps o n x y ∧ (0 < y.S → 0 < y.A ∧ 0 < y.B + o) := by
  have key : Keeps o n x y ∧ Alive o y := by
    induction h with
    | refl => exact ⟨keeps_self _ _ _, .inr ⟨hA, hB⟩⟩
    | tail _ hs ih =>
      obtain ⟨j1, j2, j3⟩ := root_step ho hv hf hsq hs (ih hA hB).2
      exact ⟨keeps_trans (ih hA hB).1 j1 j3, j2⟩
  refine ⟨key.1, fun hS => ?_⟩
  rcases key.2 with h0 | h0
  · omega
  · exact h0

/-- What two-sided withdrawals pay, against the balances. -/
theorem paid_out {e : SplEnv} {c : Curve} {o pt : Nat} {y : Pool} {r : TradingTokenResult}
    (ho : productOffset c = some o) (hr : c.poolTokensToTradingTokens e pt y.S y.A y.B .Floor = .ok r) :
    0 < y.S ∧ pt * y.A * (pt * (y.B + o)) <
      (r.token_a_amount + 1) * y.S * ((r.token_b_amount + 1) * y.S) := by
  have hr' := product_conversion (productOffset_balances ho y.A y.B) hr
  unfold ConstantProduct.poolTokensToTradingTokens at hr'
  rw [Res.bind_eq_ok] at hr'
  obtain ⟨ma, hma, hr'⟩ := hr'
  rw [Res.bind_eq_ok] at hr'
  obtain ⟨a, ha, hr'⟩ := hr'
  rw [Res.bind_eq_ok] at hr'
  obtain ⟨mb, hmb, hr'⟩ := hr'
  rw [Res.bind_eq_ok] at hr'
  obtain ⟨b, hb, hr'⟩ := hr'
  have ema := (cmul_eq_ok.1 hma).2
  have emb := (cmul_eq_ok.1 hmb).2
  obtain ⟨hS0, ea⟩ := cdiv_eq_ok.1 ha
  have eb := (cdiv_eq_ok.1 hb).2
  have hSp := Nat.pos_of_ne_zero hS0
  have er := Res.ok.inj hr'
  have h1 : pt * y.A < (r.token_a_amount + 1) * y.S := by
    rw [← er, ← ema, Nat.mul_comm]; simp only [ea]; exact Nat.lt_mul_div_succ _ hSp
  have h2 : pt * (y.B + o) < (r.token_b_amount + 1) * y.S := by
    rw [← er, ← emb, Nat.mul_comm]; simp only [eb]; exact Nat.lt_mul_div_succ _ hSp
  refine ⟨hSp, ?_⟩
  · rcases Nat.eq_zero_or_pos (pt * y.A * (pt * (y.B + o))) with h0 | h0
    · rw [h0]
      exact Nat.mul_pos (Nat.mul_pos (Nat.succ_pos _) hSp) (Nat.mul_pos (Nat.succ_pos _) hSp)
    · exact Nat.mul_lt_mul'' h1 h2

/-- C104.  So a provider who holds `pt` pool tokens through such a history can take out amounts `a` and
`b` whose geometric mean is, up to one unit of each and the parts in 10¹², at least their part of that of
the balances at the start: `pt² · A · (B + o) < (a + 1) · (b + 1) · S² · (1 + 10⁻¹²)ⁿ`. -/
theorem C104_share_partial (e : SplEnv) (c : Curve) (f : Fees) (o n : Nat) (x y : Pool) (pt : Nat)
    (r : TradingTokenResult) (ho : productOffset c = some o) (hv : f.validate = .ok ())
    (hf : f.owner_trade_fee_numerator = 0) (hsq : NearRoot e) (hA : 0 < x.A) (hB : 0 < x.B + o)
    (hS : 0 < x.S) (h : RootHistory false e c f n x y)
    (hr : c.poolTokensToTradingTokens e pt y.S y.A y.B .Floor = .ok r) :
    pt ^ 2 * (x.A * (x.B + o)) * 1000000000000 ^ n <
      (r.token_a_amount + 1) * (r.token_b_amount + 1) * x.S ^ 2 * 1000000000001 ^ n := by
  obtain ⟨hk, _⟩ := C104_history_partial e c f o n x y ho hv hf hsq hA hB h
  obtain ⟨_, h3⟩ := paid_out ho hr
  unfold Keeps at hk
  have hXX : 0 < x.S ^ 2 * 1000000000001 ^ n := Nat.mul_pos (Nat.pow_pos hS) (Nat.pow_pos (by decide))
  apply Nat.lt_of_mul_lt_mul_right (a := y.S ^ 2)
  generalize 1000000000000 ^ n = k at *
  generalize 1000000000001 ^ n = k' at *
  calc pt ^ 2 * (x.A * (x.B + o)) * k * y.S ^ 2 = pt ^ 2 * (x.A * (x.B + o) * y.S ^ 2 * k) := by ring
    _ ≤ pt ^ 2 * (y.A * (y.B + o) * x.S ^ 2 * k') := Nat.mul_le_mul_left _ hk
    _ = pt * y.A * (pt * (y.B + o)) * (x.S ^ 2 * k') := by ring
    _ < (r.token_a_amount + 1) * y.S * ((r.token_b_amount + 1) * y.S) * (x.S ^ 2 * k') :=
      Nat.mul_lt_mul_of_pos_right h3 hXX
    _ = _ := by ring

/-- A history with a trade, a two-sided deposit, a one-sided deposit and a withdrawal on a constant-product
pool, and what the holder of one percent can take out then. -/
def basketFees : Fees := ⟨25, 10000, 0, 0, 1, 100, 20, 100⟩

theorem basket_sample : RootHistory false (Spl.library true) .constantProduct basketFees 1
    ⟨5000, 7000, 30000⟩ ⟨7392, 5943, 33597⟩ := by
  have h1 : RootStep false (Spl.library true) .constantProduct basketFees 0 ⟨5000, 7000, 30000⟩
      ⟨6000, 5836, 30000⟩ :=
    .swap ⟨5000, 7000, 30000⟩ .AtoB 1000 0 ⟨6000, 5836, 1000, 1164, 2, 0⟩ (by decide +kernel)
      (by decide +kernel)
  have h2 : RootStep false (Spl.library true) .constantProduct basketFees 0 ⟨6000, 5836, 30000⟩
      ⟨6200, 6031, 31000⟩ :=
    .depositAll ⟨6000, 5836, 30000⟩ 1000 ⟨200, 195⟩ rfl (by decide +kernel) (by decide) (by decide)
  have h3 : RootStep false (Spl.library true) .constantProduct basketFees 1 ⟨6200, 6031, 31000⟩
      ⟨7502, 6031, 34097⟩ :=
    .depositSingle ⟨6200, 6031, 31000⟩ .AtoB 1302 3097 (by decide) (by decide) (by decide) (by decide)
      (by decide +kernel)
  have h4 : RootStep false (Spl.library true) .constantProduct basketFees 0 ⟨7502, 6031, 34097⟩
      ⟨7392, 5943, 33597⟩ :=
    .withdrawAll ⟨7502, 6031, 34097⟩ 500 110 88 ⟨110, 88⟩ (by decide +kernel) (by decide) (by decide)
      (by decide) (by decide) (by decide)
  exact .tail (.tail (.tail (RootHistory.single h1) h2) h3) h4

example : Keeps 0 1 ⟨5000, 7000, 30000⟩ ⟨7392, 5943, 33597⟩ :=
  (C104_history_partial (Spl.library true) .constantProduct basketFees 0 1 _ _ rfl (by decide +kernel) rfl
    (C105_near _) (by decide) (by decide) basket_sample).1

example := C104_share_partial (Spl.library true) .constantProduct basketFees 0 1 ⟨5000, 7000, 30000⟩
  ⟨7392, 5943, 33597⟩ 300 ⟨66, 53⟩ rfl (by decide +kernel) rfl (C105_near _) (by decide) (by decide)
  (by decide) basket_sample (by decide +kernel)

/-- A trade on an offset pool. -/
example : Keeps 1000 0 ⟨5000, 700, 20⟩ ⟨5398, 575, 20⟩ :=
  (C104_history_partial (Spl.library false) (.offset 1000) basketFees 1000 0 _ _ rfl (by decide +kernel) rfl
    (C105_near _) (by decide) (by decide)
    (RootHistory.single (.swap ⟨5000, 700, 20⟩ .AtoB 400 0 ⟨5398, 575, 398, 125, 1, 0⟩ (by decide +kernel)
      (by decide +kernel)))).1

end Verif.Props
