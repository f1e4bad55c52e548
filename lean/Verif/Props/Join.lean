import Verif.Props.Own
import Verif.Props.Idle

/-
C102: what a depositor of a constant-price pool gets for their tokens.
-/

namespace Verif
namespace Props
open Spec Processor

theorem ceilDiv_up {h : Bool} {lim a b q d : Nat} (he : Spl.ceilDiv h lim a b = .ok (q, d)) :
    q * b ≤ a + b := by
  obtain ⟨_, ⟨_, _, h1, _⟩ | ⟨_, h2, _, h3, _⟩⟩ := ceilDiv_ok he
  · calc q * b ≤ 1 * b := Nat.mul_le_mul_right _ h1
      _ ≤ a + b := by omega
  · obtain ⟨z, rfl⟩ := Nat.exists_eq_add_of_le h2
    have : (1 + z - 1) * b = z * b := by congr 1; omega
    rw [this] at h3
    rw [Nat.add_mul]
    omega

theorem ceilDiv_zero {h : Bool} {lim b q d : Nat} (he : Spl.ceilDiv h lim 0 b = .ok (q, d)) :
    q = 0 := by
  have hb := (ceilDiv_ok he).1
  unfold Spl.ceilDiv at he
  rw [Res.bind_eq_ok] at he
  obtain ⟨q0, hq, he⟩ := he
  have eq := (cdiv_eq_ok.1 hq).2
  rw [Nat.zero_div] at eq
  rw [if_pos eq] at he
  split at he
  · rw [Res.bind_eq_ok] at he
    obtain ⟨a2, ha2, he⟩ := he
    have := (cmul_eq_ok.1 ha2).2
    rw [if_neg (by omega)] at he
    exact (Prod.mk.inj (Res.ok.inj he)).1.symm
  · cases he

/-- No pool tokens, no token A. -/
theorem toTrading_none {e : SplEnv} {p : UInt64} {pt S A B : Nat} {r : TradingTokenResult}
    (h : ConstantPrice.poolTokensToTradingTokens e p pt S A B .Ceiling = .ok r) (h0 : pt = 0) :
    r.token_a_amount = 0 := by
  unfold ConstantPrice.poolTokensToTradingTokens at h
  simp only [] at h
  rw [Res.bind_eq_ok] at h
  obtain ⟨nv, hnv, h⟩ := h
  rw [Res.bind_eq_ok] at h
  obtain ⟨t, ht, h⟩ := h
  rw [Res.bind_eq_ok] at h
  obtain ⟨m, hm, h⟩ := h
  rw [Res.bind_eq_ok] at h
  obtain ⟨a, ha, h⟩ := h
  rw [Res.bind_eq_ok] at h
  obtain ⟨b1, hb1, h⟩ := h
  rw [Res.bind_eq_ok] at h
  obtain ⟨b, hb, h⟩ := h
  have em := (cmul_eq_ok.1 hm).2
  rw [h0, Nat.zero_mul] at em
  rw [em] at ha
  rw [← Res.ok.inj h]
  exact ceilDiv_zero (q := a.1) (d := a.2) ha

/-- What a two-sided deposit costs at most. -/
theorem toTrading_up {e : SplEnv} {p : UInt64} {pt S A B : Nat} {r : TradingTokenResult}
    (h : ConstantPrice.poolTokensToTradingTokens e p pt S A B .Ceiling = .ok r) :
    worth p.toNat r.token_a_amount r.token_b_amount * S ≤
      pt * worth p.toNat A B + p.toNat + (1 + p.toNat) * S := by
  unfold ConstantPrice.poolTokensToTradingTokens at h
  simp only [] at h
  rw [Res.bind_eq_ok] at h
  obtain ⟨nv, hnv, h⟩ := h
  rw [Res.bind_eq_ok] at h
  obtain ⟨t, ht, h⟩ := h
  rw [Res.bind_eq_ok] at h
  obtain ⟨m, hm, h⟩ := h
  rw [Res.bind_eq_ok] at h
  obtain ⟨a, ha, h⟩ := h
  rw [Res.bind_eq_ok] at h
  obtain ⟨b1, hb1, h⟩ := h
  rw [Res.bind_eq_ok] at h
  obtain ⟨b, hb, h⟩ := h
  obtain ⟨t1, _⟩ := ConstantPrice.total_eq hnv ht
  have em := (cmul_eq_ok.1 hm).2
  have e := Res.ok.inj h
  rw [← e]
  simp only []
  have h1 : a.1 * S ≤ m + S := ceilDiv_up (q := a.1) (d := a.2) ha
  have h2 : b.1 * S ≤ b1.1 + S := ceilDiv_up (q := b.1) (d := b.2) hb
  have h3 : b1.1 * p.toNat ≤ m + p.toNat := ceilDiv_up (q := b1.1) (d := b1.2) hb1
  have h4 : p.toNat * (b.1 * S) ≤ p.toNat * (b1.1 + S) := Nat.mul_le_mul_left _ h2
  have h5 : pt * (2 * t) ≤ pt * worth p.toNat A B := Nat.mul_le_mul_left _ t1
  have e1 : worth p.toNat a.1 b.1 * S = a.1 * S + p.toNat * (b.1 * S) := by unfold worth; ring
  have e2 : p.toNat * (b1.1 + S) = b1.1 * p.toNat + p.toNat * S := by ring
  have e3 : pt * (2 * t) = 2 * (pt * t) := by ring
  have e4 : (1 + p.toNat) * S = S + p.toNat * S := by ring
  omega

/-- Pool tokens for `x`, rounded down, from a formula. -/
theorem depositSingle_inv {e : SplEnv} {p : UInt64} {s A B S m : Nat} {dir : TradeDirection}
    {f : Fees} (h : (Curve.constantPrice p).depositSingle e s A B S dir f = .ok m) (hm : 0 < m) :
    ∃ fee, f.tradingFee (max 1 (s / 2)) = .ok fee ∧ fee ≤ s ∧
      S * worthOf p.toNat dir (s - fee) < (m + 1) * worth p.toNat A B := by
  unfold Curve.depositSingle at h
  split at h
  · have := Res.ok.inj h; omega
  · rw [Res.bind_eq_ok] at h
    obtain ⟨half, hh, h⟩ := h
    rw [Res.bind_eq_ok] at h
    obtain ⟨fee, hf, h⟩ := h
    rw [Res.bind_eq_ok] at h
    obtain ⟨less, hl, h⟩ := h
    obtain ⟨e0, e1⟩ := csub_eq_ok.1 hl
    rw [(cdiv_eq_ok.1 hh).2] at hf
    obtain ⟨hm, h0⟩ := ConstantPrice.trading_floor (e := e) h
    refine ⟨fee, hf, e0, ?_⟩
    rw [← e1, hm]
    have := Nat.lt_div_mul_add (a := S * worthOf p.toNat dir less) (Nat.pos_of_ne_zero h0)
    rw [Nat.add_mul, Nat.one_mul]
    exact this

/-- From the change of the pool to the part of the depositor. -/
theorem join_share {V S V' S' X m y : Nat} (hS : 0 < S) (hy : y ≤ m) (hS' : 0 < S')
    (h1 : V * S' ≤ V' * S) (h2 : S * X < (m + 1) * V) :
    (X : ℚ) * y ≤ (m * V' / S' : ℚ) * (y + 1) := by
  have p1 : (0 : ℚ) < S := by exact_mod_cast hS
  have p2 : (0 : ℚ) < S' := by exact_mod_cast hS'
  have q1 : (V * S' : ℚ) ≤ V' * S := by exact_mod_cast h1
  have q2 : (S * X : ℚ) ≤ (m + 1) * V := by exact_mod_cast h2.le
  have q3 : (y : ℚ) ≤ m := by exact_mod_cast hy
  have y0 : (0 : ℚ) ≤ y := Nat.cast_nonneg _
  have m0 : (0 : ℚ) ≤ m := Nat.cast_nonneg _
  have v0 : (0 : ℚ) ≤ V' := Nat.cast_nonneg _
  have h3 : (X : ℚ) * S' ≤ (m + 1) * V' := by
    have : (X : ℚ) * S' * S ≤ (m + 1) * V' * S := by
      calc (X : ℚ) * S' * S = S * X * S' := by ring
        _ ≤ (m + 1) * V * S' := mul_le_mul_of_nonneg_right q2 p2.le
        _ = (m + 1) * (V * S') := by ring
        _ ≤ (m + 1) * (V' * S) := mul_le_mul_of_nonneg_left q1 (by linarith)
        _ = _ := by ring
    exact le_of_mul_le_mul_right this p1
  rw [div_mul_eq_mul_div, le_div_iff₀ p2]
  have h4 : (X : ℚ) * S' * y ≤ (m + 1) * V' * y := mul_le_mul_of_nonneg_right h3 y0
  have h5 : V' * (y : ℚ) ≤ V' * m := mul_le_mul_of_nonneg_left q3 v0
  nlinarith

/-- What a one-sided deposit does to the vaults. -/
theorem join_vaults {env : Env} {K : Pubkey → Prop} {w w' : World} {x y : UInt64} {z : Pubkey}
    {s : SwapV1} {signers : List Pubkey} {a : DepositSingleAccounts} {src tA tB : TokenAccount}
    {dir : TradeDirection} {pm : Mint} {amtP : UInt64} {w1 : World} (hK : K a.swap)
    (hc : Custody env w a.swap s z) (hs : ∀ x ∈ signers, ¬ IsPda env K x)
    (hu : a.userAuthority ∈ signers)
    (run : DepositSingleRun env signers x y a w w' s src tA tB dir pm amtP w1) (p : Nat) :
    mintOf w a.source = some (mintIn s dir) ∧
      vaultsWorth w s p + worthOf p dir x.toNat ≤ vaultsWorth w' s p := by
  have hx := hc.isPda hK
  obtain ⟨_, _, _, _, _, m1⟩ := tokenTransfer_ok run.pay
  obtain ⟨s1, _, hs1, _, hs2⟩ := m1.srcTok
  have a1 := hc.vaultA.not_spender (Frame.refl w) hx (hs _ hu) ⟨s1, hs1, hs2⟩
  have b1 := hc.vaultB.not_spender (Frame.refl w) hx (hs _ hu) ⟨s1, hs1, hs2⟩
  have nA := nbal_cast w s.token_a
  have nB := nbal_cast w s.token_b
  have nA' := nbal_cast w' s.token_a
  have nB' := nbal_cast w' s.token_b
  have ba := run.effect.bal s.token_a
  have bb := run.effect.bal s.token_b
  rw [when_neg a1] at ba
  rw [when_neg b1] at bb
  have z1 := when_nonneg (c := s.token_a = a.destination) (Int.natCast_nonneg amtP.toNat)
  have z2 := when_nonneg (c := s.token_b = a.destination) (Int.natCast_nonneg amtP.toNat)
  have e1 : ∀ u, vaultsWorth u s p = worth p (nbal u s.token_a) (nbal u s.token_b) := fun _ => rfl
  refine ⟨?_, ?_⟩
  · have mA := hc.vaultA.mintOf (Frame.refl w)
    have mB := hc.vaultB.mintOf (Frame.refl w)
    have hm := m1.mints
    rw [hm]
    cases dir with
    | AtoB => rw [show sideOf .AtoB a.tokenA a.tokenB = a.tokenA from rfl, run.checked.isA]; exact mA
    | BtoA => rw [show sideOf .BtoA a.tokenA a.tokenB = a.tokenB from rfl, run.checked.isB]; exact mB
  rw [e1, e1]
  cases dir with
  | AtoB =>
    have : when (s.token_a = sideOf .AtoB s.token_a s.token_b) (x.toNat : Int) = x.toNat :=
      when_pos rfl _
    have z3 := when_nonneg (c := s.token_b = sideOf .AtoB s.token_a s.token_b)
      (Int.natCast_nonneg x.toNat)
    refine le_trans (le_of_eq ?_) (worth_mono (show nbal w s.token_a + x.toNat ≤ nbal w' s.token_a by
      omega) (show nbal w s.token_b ≤ nbal w' s.token_b by omega))
    unfold worth worthOf
    ring
  | BtoA =>
    have : when (s.token_b = sideOf .BtoA s.token_a s.token_b) (x.toNat : Int) = x.toNat :=
      when_pos rfl _
    have z3 := when_nonneg (c := s.token_a = sideOf .BtoA s.token_a s.token_b)
      (Int.natCast_nonneg x.toNat)
    refine le_trans (le_of_eq ?_) (worth_mono (show nbal w s.token_a ≤ nbal w' s.token_a by omega)
      (show nbal w s.token_b + x.toNat ≤ nbal w' s.token_b by omega))
    unfold worth worthOf
    ring

theorem both_share {V S V' S' X n p : Nat} (hS : 0 < S) (hn : 1 ≤ n) (h1 : S' = S + n)
    (h2 : V' = V + X) (h3 : X * S ≤ n * V + p + (1 + p) * S) :
    (V' : ℚ) - V ≤ (n * V' / S' : ℚ) + (1 + p) := by
  subst h1
  subst h2
  have p2 : (0 : ℚ) < ((S + n : Nat) : ℚ) := by exact_mod_cast (by omega : 0 < S + n)
  have q3 : (X * S : ℚ) ≤ n * V + p + (1 + p) * S := by exact_mod_cast h3
  have q1 : (1 : ℚ) ≤ n := by exact_mod_cast hn
  have q4 : (0 : ℚ) ≤ p := Nat.cast_nonneg _
  rw [← sub_le_iff_le_add, le_div_iff₀ p2]
  push_cast
  nlinarith [mul_le_mul_of_nonneg_left q1 (by linarith : (0 : ℚ) ≤ 1 + p)]

/-- C102.  Whoever deposits `x` of one token, asking for at least `y` pool tokens, has afterwards a
part of the pool that is worth the deposit less the trade fee on half of it, but for less than one
part in `y + 1`; whatever anybody did to the pool before. -/
theorem C102_single (env : Env) (K : Pubkey → Prop) (he : EnvOk env K) (w w' : World)
    (hr : Reachable env K w) (signers : List Pubkey) (hs : ∀ x ∈ signers, ¬ IsPda env K x)
    (a : DepositSingleAccounts) (x y : UInt64) (s : SwapV1) (hp : PoolAt env w a.swap s) (p : UInt64)
    (hl : s.swap_curve = .constantPrice p) (hpos : 0 < shares w s)
    (h : exec env signers (.depositSingle a x y) w = .ok w') :
    ∃ dir fee m, mintOf w a.source = some (mintIn s dir) ∧
      s.fees.tradingFee (max 1 (x.toNat / 2)) = .ok fee ∧ fee ≤ x.toNat ∧
      shares w' s = shares w s + m ∧ y.toNat ≤ m ∧ 0 < m ∧
      (worthOf p.toNat dir (x.toNat - fee) : ℚ) * y.toNat ≤ claim w' s p.toNat m * (y.toNat + 1) ∧
      (worthOf p.toNat dir (x.toNat - fee) : ℚ) * m ≤ claim w' s p.toNat m * (m + 1) := by
  obtain ⟨w0, hw0, hst⟩ := hr
  obtain ⟨hK, ⟨z, hc⟩, hcf⟩ := reachable_pool he hw0 hst _ s hp
  obtain ⟨hu, hpr⟩ := exec_depositSingle h
  obtain ⟨ts, src, tA, tB, dir, pm, amtP, w1, run⟩ := processDepositSingle_ok hpr
  have es := run.state
  rw [unpackSwap_of hp] at es
  cases es
  have e2 : ∀ u, shares u s = nsup u s.pool_mint := fun _ => rfl
  have nS := nsup_cast w s.pool_mint
  have nS' := nsup_cast w' s.pool_mint
  have bs := run.effect.supply s.pool_mint
  rw [when_pos rfl] at bs
  have tA0 := nbal_token (run.checked.isA ▸ run.tokA.2)
  have tB0 := nbal_token (run.checked.isB ▸ run.tokB.2)
  have tS0 := nsup_mint (run.checked.isMint ▸ run.mintAcc.2)
  have gS : shares w' s = shares w s + amtP.toNat := by rw [e2, e2]; omega
  have hm : 0 < amtP.toNat := Nat.pos_of_ne_zero fun h0 => run.posP (UInt64.toNat_inj.1 h0)
  have hy : y.toNat ≤ amtP.toNat := UInt64.le_iff_toNat_le.1 run.minP
  rcases run.result with ⟨h0, _⟩ | ⟨_, hres⟩
  · rw [← tS0] at h0; rw [e2] at hpos; omega
  rw [hl, ← tA0, ← tB0, ← tS0] at hres
  obtain ⟨fee, g1, g2, g3⟩ := depositSingle_inv hres hm
  have hS' : 0 < shares w' s := by omega
  obtain ⟨g0, g4⟩ := join_vaults hK hc hs hu run p.toNat
  have hf : vaultsWorth w s p.toNat * shares w' s ≤ vaultsWorth w' s p.toNat * shares w s := by
    have key := C21_deposit_single env.spl p x.toNat amtP.toNat
      ⟨nbal w s.token_a, nbal w s.token_b, nsup w s.pool_mint⟩ dir s.fees hres
    rw [gS]
    refine noDilution_mono key (le_trans (le_of_eq ?_) g4)
    have e1 : vaultsWorth w s p.toNat = worth p.toNat (nbal w s.token_a) (nbal w s.token_b) := rfl
    rw [e1]
    cases dir <;> simp only [Pool.trade, worth, worthOf, Nat.sub_zero] <;> ring
  refine ⟨dir, fee, amtP.toNat, ?_, g1, g2, gS, hy, hm, ?_, ?_⟩
  · exact g0
  · exact join_share hpos hy hS' hf g3
  · exact join_share hpos le_rfl hS' hf g3

/-- C102.  Into a pool without pool tokens: the depositor owns all of it, what they paid included. -/
theorem C102_first (env : Env) (K : Pubkey → Prop) (he : EnvOk env K) (w w' : World)
    (hr : Reachable env K w) (signers : List Pubkey) (hs : ∀ x ∈ signers, ¬ IsPda env K x)
    (a : DepositSingleAccounts) (x y : UInt64) (s : SwapV1) (hp : PoolAt env w a.swap s) (p : Nat)
    (hz : shares w s = 0) (h : exec env signers (.depositSingle a x y) w = .ok w') :
    ∃ dir, mintOf w a.source = some (mintIn s dir) ∧ shares w' s = 1000000000 ∧
      (worthOf p dir x.toNat : ℚ) ≤ claim w' s p 1000000000 := by
  obtain ⟨w0, hw0, hst⟩ := hr
  obtain ⟨hK, ⟨z, hc⟩, hcf⟩ := reachable_pool he hw0 hst _ s hp
  obtain ⟨hu, hpr⟩ := exec_depositSingle h
  obtain ⟨ts, src, tA, tB, dir, pm, amtP, w1, run⟩ := processDepositSingle_ok hpr
  have es := run.state
  rw [unpackSwap_of hp] at es
  cases es
  have e2 : ∀ u, shares u s = nsup u s.pool_mint := fun _ => rfl
  have nS := nsup_cast w s.pool_mint
  have nS' := nsup_cast w' s.pool_mint
  have bs := run.effect.supply s.pool_mint
  rw [when_pos rfl] at bs
  have tS0 := nsup_mint (run.checked.isMint ▸ run.mintAcc.2)
  obtain ⟨g0, g4⟩ := join_vaults hK hc hs hu run p
  rcases run.result with ⟨_, h1⟩ | ⟨h0, _⟩
  · have h1' : amtP.toNat = 1000000000 := h1
    have g : shares w' s = 1000000000 := by rw [e2] at hz ⊢; omega
    refine ⟨dir, g0, g, ?_⟩
    have : claim w' s p 1000000000 = vaultsWorth w' s p := by
      unfold claim
      rw [g]
      push_cast
      field_simp
    rw [this]
    exact_mod_cast (Nat.le_add_left _ _).trans g4
  · rw [← tS0] at h0; rw [e2] at hz; omega

/-- C102.  Whoever deposits both tokens pays no more than one unit of each above what the pool tokens
they get are then worth. -/
theorem C102_both (env : Env) (K : Pubkey → Prop) (he : EnvOk env K) (w w' : World)
    (hr : Reachable env K w) (signers : List Pubkey) (hs : ∀ x ∈ signers, ¬ IsPda env K x)
    (a : DepositAllAccounts) (q y z : UInt64) (s : SwapV1) (hp : PoolAt env w a.swap s) (p : UInt64)
    (hl : s.swap_curve = .constantPrice p) (hpos : 0 < shares w s) (ho : Ordinary s)
    (h : exec env signers (.depositAll a q y z) w = .ok w') :
    shares w' s = shares w s + q.toNat ∧
      (vaultsWorth w' s p.toNat : ℚ) - vaultsWorth w s p.toNat ≤
        claim w' s p.toNat q.toNat + (1 + p.toNat) := by
  obtain ⟨w0, hw0, hst⟩ := hr
  obtain ⟨hK, ⟨v, hc⟩, hcf⟩ := reachable_pool he hw0 hst _ s hp
  have hx := hc.isPda hK
  have hab := vault_ne hc
  have e1 : ∀ u, vaultsWorth u s p.toNat = worth p.toNat (nbal u s.token_a) (nbal u s.token_b) :=
    fun _ => rfl
  have e2 : ∀ u, shares u s = nsup u s.pool_mint := fun _ => rfl
  have nA := nbal_cast w s.token_a
  have nB := nbal_cast w s.token_b
  have nA' := nbal_cast w' s.token_a
  have nB' := nbal_cast w' s.token_b
  have nS := nsup_cast w s.pool_mint
  have nS' := nsup_cast w' s.pool_mint
  obtain ⟨hu, hpr⟩ := exec_depositAll h
  obtain ⟨ts, tA, tB, pm, r, amtA, amtB, amtP, w1, w2, run⟩ := processDepositAll_ok hpr
  have es := run.state
  rw [unpackSwap_of hp] at es
  cases es
  obtain ⟨_, _, _, _, _, m1⟩ := tokenTransfer_ok run.payA
  obtain ⟨_, _, _, _, _, m2⟩ := tokenTransfer_ok run.payB
  obtain ⟨_, _, _, _, _, m3⟩ := tokenMintTo_ok run.mint
  obtain ⟨s1, _, hs1, _, hs2⟩ := m1.srcTok
  obtain ⟨s2, _, hs3, _, hs4⟩ := m2.srcTok
  have a1 := hc.vaultA.not_spender (Frame.refl w) hx (hs _ hu) ⟨s1, hs1, hs2⟩
  have b1 := hc.vaultB.not_spender (Frame.refl w) hx (hs _ hu) ⟨s1, hs1, hs2⟩
  have a2 := hc.vaultA.not_spender m1.frame hx (hs _ hu) ⟨s2, hs3, hs4⟩
  have b2 := hc.vaultB.not_spender m1.frame hx (hs _ hu) ⟨s2, hs3, hs4⟩
  have dm : mintOf w a.destination = some s.pool_mint := by
    obtain ⟨d, _, hd1, hd2⟩ := m3.dstTok
    rw [← m1.frame.mintOf a.destination, ← m2.frame.mintOf a.destination, ← run.checked.isMint]
    unfold Spec.mintOf
    rw [tokenAt_some.2 hd1, Option.map_some, hd2]
  have da : s.token_a ≠ a.destination := by
    intro e
    have := hc.vaultA.mintOf (Frame.refl w)
    rw [e, dm] at this
    exact ho.1 (Option.some.inj this)
  have db : s.token_b ≠ a.destination := by
    intro e
    have := hc.vaultB.mintOf (Frame.refl w)
    rw [e, dm] at this
    exact ho.2 (Option.some.inj this)
  have ba := run.effect.bal s.token_a
  have bb := run.effect.bal s.token_b
  have bs := run.effect.supply s.pool_mint
  rw [when_pos rfl, when_neg a1, when_neg a2, when_neg hab, when_neg da] at ba
  rw [when_pos rfl, when_neg b1, when_neg b2, when_neg hab.symm, when_neg db] at bb
  rw [when_pos rfl] at bs
  have tA0 := nbal_token (run.checked.isA ▸ run.tokA.2)
  have tB0 := nbal_token (run.checked.isB ▸ run.tokB.2)
  have tS0 := nsup_mint (run.checked.isMint ▸ run.mintAcc.2)
  have hsp : pm.supply > 0 := UInt64.lt_iff_toNat_lt.2 (by rw [← tS0]; exact hpos)
  have hres := run.result
  have hP := run.amtPIs
  rw [if_pos hsp] at hP
  rw [if_pos hsp, if_pos hsp, hl, ← tA0, ← tB0, ← tS0] at hres
  have iA := run.amtAIs
  have iB := run.amtBIs
  have gS : shares w' s = shares w s + q.toNat := by rw [e2, e2]; omega
  refine ⟨gS, ?_⟩
  have up := toTrading_up hres
  have gA : nbal w' s.token_a = nbal w s.token_a + r.token_a_amount := by omega
  have gB : nbal w' s.token_b = nbal w s.token_b + r.token_b_amount := by omega
  have gV : vaultsWorth w' s p.toNat =
      vaultsWorth w s p.toNat + worth p.toNat r.token_a_amount r.token_b_amount := by
    rw [e1, e1, gA, gB]; unfold worth; ring
  have q0 : 1 ≤ q.toNat := by
    rcases Nat.eq_zero_or_pos q.toNat with h0 | h0
    · exfalso
      have := toTrading_none hres h0
      have pa := run.posA
      exact pa (UInt64.toNat_inj.1 (by rw [iA, this]; rfl))
    · exact h0
  exact both_share hpos q0 gS gV up

/-! ### The limit matters -/

/-- Pool 2 about to be created by 50 with 5000 token A and no token B; 62 holds 20000 token A. -/
def joinAccounts : List (Pubkey × Account) := [
  (Sample.key 2, ⟨Sample.key 100, .raw (List.replicate 324 0)⟩),
  (Sample.key 13, Sample.tok (Sample.key 20) (Sample.key 130) 5000),
  (Sample.key 14, Sample.tok (Sample.key 21) (Sample.key 130) 0),
  (Sample.key 15, Sample.mnt (Sample.key 130) 0),
  (Sample.key 16, Sample.tok (Sample.key 15) (Sample.key 60) 0),
  (Sample.key 17, Sample.tok (Sample.key 15) (Sample.key 50) 0),
  (Sample.key 20, Sample.mnt (Sample.key 61) 25000),
  (Sample.key 30, Sample.tok (Sample.key 20) (Sample.key 50) 0),
  (Sample.key 32, Sample.tok (Sample.key 20) (Sample.key 62) 20000),
  (Sample.key 33, Sample.tok (Sample.key 15) (Sample.key 62) 0)]

def joinStart : World := Sample.ledger joinAccounts

/-- 50 creates the pool and burns all but one of their pool tokens. -/
def joinBurnt : Except Err World := do
  let w ← exec Sample.env [Sample.key 2]
    (.initConstantPrice Sample.init2 ⟨0, 1, 0, 1, 0, 1, 0, 1⟩ 7) joinStart
  (Token.TokenInstr.burn (Sample.key 17) (Sample.key 15) (Sample.key 50) 999999999).exec
    Sample.env.tokenProgramId [Sample.key 50] w

def joinTake : WithdrawSingleAccounts := ⟨Sample.key 2, Sample.key 130, Sample.key 50, Sample.key 15,
  Sample.key 17, Sample.key 13, Sample.key 14, Sample.key 30, Sample.key 16, Sample.key 101⟩

/-- C102.  The bound is sharp: 50 puts 5000 token A into a pool and burns all but one pool token.
When 62 deposits 9999 token A without asking for more than one pool token, that is what they get,
half of the pool, and 50 takes 7499 token A out.  Asking for two, they would have been refused. -/
theorem C102_sharp : ∃ w1 w2 w3, joinBurnt = .ok w1 ∧
    exec Sample.env [Sample.key 62] (.depositSingle ownJoin 9999 1) w1 = .ok w2 ∧
    exec Sample.env [Sample.key 50] (.withdrawSingle joinTake 7499 1) w2 = .ok w3 ∧
    Sample.bals [13, 17, 30, 32, 33] w1 = [5000, 1, 0, 20000, 0] ∧
    Sample.bals [13, 17, 30, 32, 33] w2 = [14999, 1, 0, 10001, 1] ∧
    Sample.bals [13, 17, 30, 32, 33] w3 = [7500, 0, 7499, 10001, 1] ∧
    exec Sample.env [Sample.key 62] (.depositSingle ownJoin 9999 2) w1 =
      .error (.swap .ExceededSlippage) := by
  obtain ⟨w1, h1⟩ := of_isOk (x := joinBurnt) (by decide +kernel)
  obtain ⟨w2, h2⟩ := of_isOk (x := joinBurnt >>=
    exec Sample.env [Sample.key 62] (.depositSingle ownJoin 9999 1)) (by decide +kernel)
  obtain ⟨w3, h3⟩ := of_isOk (x := (joinBurnt >>=
    exec Sample.env [Sample.key 62] (.depositSingle ownJoin 9999 1)) >>=
    exec Sample.env [Sample.key 50] (.withdrawSingle joinTake 7499 1)) (by decide +kernel)
  have b1 : Sample.after joinBurnt (Sample.bals [13, 17, 30, 32, 33]) =
    .ok [5000, 1, 0, 20000, 0] := by decide +kernel
  have b2 : Sample.after (joinBurnt >>=
    exec Sample.env [Sample.key 62] (.depositSingle ownJoin 9999 1))
      (Sample.bals [13, 17, 30, 32, 33]) = .ok [14999, 1, 0, 10001, 1] := by decide +kernel
  have b3 : Sample.after ((joinBurnt >>=
    exec Sample.env [Sample.key 62] (.depositSingle ownJoin 9999 1)) >>=
    exec Sample.env [Sample.key 50] (.withdrawSingle joinTake 7499 1))
      (Sample.bals [13, 17, 30, 32, 33]) = .ok [7500, 0, 7499, 10001, 1] := by decide +kernel
  have e : Sample.after (joinBurnt >>=
    exec Sample.env [Sample.key 62] (.depositSingle ownJoin 9999 2)) (fun _ => ()) =
      .error (.swap .ExceededSlippage) := by decide +kernel
  rw [h3] at b3
  rw [h2] at b2 h3
  rw [h1] at h2 b1 e
  refine ⟨w1, w2, w3, h1, h2, h3, Except.ok.inj b1, Except.ok.inj b2, Except.ok.inj b3, ?_⟩
  replace e : Sample.after (exec Sample.env [Sample.key 62] (.depositSingle ownJoin 9999 2) w1)
    (fun _ => ()) = .error (.swap .ExceededSlippage) := e
  cases hx : exec Sample.env [Sample.key 62] (.depositSingle ownJoin 9999 2) w1 with
  | ok v => rw [hx] at e; cases e
  | error v => rw [hx] at e; rw [Except.error.inj e]

/-! ### The hypotheses are met -/

example : ∃ dir fee m, mintOf live (Sample.key 30) = some (mintIn pool2 dir) ∧
    pool2.fees.tradingFee (max 1 ((700 : UInt64).toNat / 2)) = .ok fee ∧ fee ≤ (700 : UInt64).toNat ∧
    shares (ranTo [Sample.depOne] live) pool2 = shares live pool2 + m ∧ (1 : UInt64).toNat ≤ m ∧
    0 < m ∧
    (worthOf (7 : UInt64).toNat dir ((700 : UInt64).toNat - fee) : ℚ) * (1 : UInt64).toNat ≤
      claim (ranTo [Sample.depOne] live) pool2 (7 : UInt64).toNat m * ((1 : UInt64).toNat + 1) ∧
    (worthOf (7 : UInt64).toNat dir ((700 : UInt64).toNat - fee) : ℚ) * m ≤
      claim (ranTo [Sample.depOne] live) pool2 (7 : UInt64).toNat m * (m + 1) :=
  C102_single Sample.env samplePools sample_ok live _ live_reachable _ sample_signers
    ⟨Sample.key 2, Sample.key 130, Sample.key 50, Sample.key 30, Sample.key 13, Sample.key 14,
      Sample.key 15, Sample.key 17, Sample.key 101⟩ 700 1 pool2
    live_pool2 7 rfl (by decide +kernel) (exec_ranTo (i := Sample.depOne) (by decide +kernel))

example : (vaultsWorth (ranTo [Sample.depAll] live) pool2 (7 : UInt64).toNat : ℚ) -
      vaultsWorth live pool2 (7 : UInt64).toNat ≤
    claim (ranTo [Sample.depAll] live) pool2 (7 : UInt64).toNat (100000000 : UInt64).toNat +
      (1 + (7 : UInt64).toNat) :=
  (C102_both Sample.env samplePools sample_ok live _ live_reachable _ sample_signers
    ⟨Sample.key 2, Sample.key 130, Sample.key 50, Sample.key 30, Sample.key 31, Sample.key 13,
      Sample.key 14, Sample.key 15, Sample.key 17, Sample.key 101⟩ 100000000 2000 2000
    pool2 live_pool2 7 rfl (by decide +kernel) ⟨by decide, by decide⟩
    (exec_ranTo (i := Sample.depAll) (by decide +kernel))).2

/-- A deposit into pool 2 after 50 has burnt all its pool tokens. -/
example : ∃ w1 w2 dir, Reachable Sample.env samplePools w1 ∧ shares w1 poolFree = 0 ∧
    exec Sample.env [Sample.key 1, Sample.key 2, Sample.key 50] Sample.depOne w1 = .ok w2 ∧
    (worthOf 7 dir (700 : UInt64).toNat : ℚ) ≤ claim w2 poolFree 7 1000000000 := by
  obtain ⟨w1, h1⟩ := of_isOk (x := Token.burn Sample.env.tokenProgramId
    (fun k => decide (k = Sample.key 50)) (Sample.key 17) (Sample.key 15) (Sample.key 50) 1000000000
    freePool) (by decide +kernel)
  obtain ⟨w2, h2⟩ := of_isOk (x := Token.burn Sample.env.tokenProgramId
    (fun k => decide (k = Sample.key 50)) (Sample.key 17) (Sample.key 15) (Sample.key 50) 1000000000
    freePool >>= exec Sample.env [Sample.key 1, Sample.key 2, Sample.key 50] Sample.depOne)
    (by decide +kernel)
  have z : Sample.after (Token.burn Sample.env.tokenProgramId
    (fun k => decide (k = Sample.key 50)) (Sample.key 17) (Sample.key 15) (Sample.key 50) 1000000000
    freePool) (fun w => shares w poolFree) = .ok 0 := by decide +kernel
  rw [h1] at h2 z
  have st := third_party_burn sample_ok (sample_signers (Sample.key 50) (by decide)) h1
  have hr : Reachable Sample.env samplePools w1 := by
    obtain ⟨w0, a, b⟩ := freePool_reachable
    exact ⟨w0, a, b.tail st⟩
  have hp := (C26_pool_forever Sample.env samplePools freePool w1 (Sample.key 2) poolFree
    (pool_of (by decide +kernel) (by decide +kernel)) (.single st)).2.1
  obtain ⟨dir, _, _, h⟩ := C102_first Sample.env samplePools sample_ok w1 w2 hr _ sample_signers
    ⟨Sample.key 2, Sample.key 130, Sample.key 50, Sample.key 30, Sample.key 13, Sample.key 14,
      Sample.key 15, Sample.key 17, Sample.key 101⟩ 700 1 poolFree hp 7 (Except.ok.inj z) h2
  exact ⟨w1, w2, dir, hr, Except.ok.inj z, h2, h⟩

end Props
end Verif
