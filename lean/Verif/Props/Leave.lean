import Verif.Lemmas.Leave
import Verif.Props.Claim
import Verif.Props.Shares

/-
C80: leaving a constant-price pool with one's share of it.
-/

namespace Verif
namespace Props

open Spec Processor

/-- C80 in full: whoever burns pool tokens for both tokens is paid what the pool tokens stand for, up
to rounding (one token B and two token A). -/
def C80_statement (env : Env) (K : Pubkey → Prop) : Prop :=
  ∀ (w w' : World) (s : SwapV1) (p : UInt64) (signers : List Pubkey) (a : WithdrawAllAccounts)
    (q y z : UInt64), Reachable env K w → PoolAt env w a.swap s → s.swap_curve = .constantPrice p →
    (∀ x ∈ signers, ¬ IsPda env K x) → exec env signers (.withdrawAll a q y z) w = .ok w' →
    claim w s p.toNat (shares w s - shares w' s) + vaultsWorth w' s p.toNat ≤
      (vaultsWorth w s p.toNat + p.toNat + 2 : ℚ)

variable (env : Env) (K : Pubkey → Prop) (he : EnvOk env K)
include he

/-- C80 (part).  It holds of every withdrawal that both vaults can pay in full, each giving half of the
value. -/
theorem C80_share_partial (w w' : World) (hr : Reachable env K w) (s : SwapV1) (p : UInt64)
    (signers : List Pubkey) (a : WithdrawAllAccounts) (q y z : UInt64)
    (hp : PoolAt env w a.swap s) (hl : s.swap_curve = .constantPrice p)
    (hs : ∀ x ∈ signers, ¬ IsPda env K x) (h : exec env signers (.withdrawAll a q y z) w = .ok w')
    (hA : ((shares w s - shares w' s : Nat) * vaultsWorth w s p.toNat : Int) ≤
      2 * shares w s * bal w s.token_a)
    (hB : ((shares w s - shares w' s : Nat) * vaultsWorth w s p.toNat : Int) ≤
      2 * shares w s * (p.toNat * bal w s.token_b)) :
    claim w s p.toNat (shares w s - shares w' s) + vaultsWorth w' s p.toNat ≤
      (vaultsWorth w s p.toNat + p.toNat + 2 : ℚ) := by
  obtain ⟨w0, hw0, hst⟩ := hr
  obtain ⟨hK, ⟨x, hc⟩, hcf⟩ := reachable_pool he hw0 hst _ s hp
  obtain ⟨n, r, _, hn, _, hres, _, _, g1, g2, g3⟩ := withdrawAll_exact hK hp hc hcf hs h
  have e1 : ∀ u, vaultsWorth u s p.toNat = worth p.toNat (nbal u s.token_a) (nbal u s.token_b) :=
    fun _ => rfl
  have e2 : ∀ u, shares u s = nsup u s.pool_mint := fun _ => rfl
  have nA := nbal_cast w s.token_a
  have nB := nbal_cast w s.token_b
  rw [e1, e1, e2, e2] at *
  rw [← nA] at hA
  rw [← nB] at hB
  unfold claim
  rw [e1, e2]
  rw [hl] at hres
  obtain ⟨s1, s2, _, s4, s5⟩ := (ConstantPrice.share_floor (e := env.spl)
    (nbal_lt w s.token_a) (nbal_lt w s.token_b) _).1 hres
  obtain ⟨_, u2⟩ := detour_withdraw s4 s5
  rw [g1] at hA hB
  rw [show nsup w s.pool_mint - nsup w' s.pool_mint = n by omega, g2, g3]
  rw [show nsup w s.pool_mint - (nsup w s.pool_mint - n) = n by omega] at hA hB
  generalize nsup w s.pool_mint = S at *
  generalize nbal w s.token_a = A at *
  generalize nbal w s.token_b = B at *
  obtain ⟨ra, rb⟩ := r
  simp only [] at *
  have hA' : n * worth p.toNat A B ≤ 2 * S * A := by exact_mod_cast hA
  have hB' : n * worth p.toNat A B ≤ 2 * S * (p.toNat * B) := by exact_mod_cast hB
  have hh : 2 * halfWorth p.toNat A B ≤ worth p.toNat A B := by unfold halfWorth; omega
  have hh' := Nat.mul_le_mul_left n hh
  -- the vaults pay
  have la : ra ≤ A := by
    have : ra * S ≤ A * S := by
      have := s4.1
      nlinarith
    exact Nat.le_of_mul_le_mul_right this s1
  have lb : rb ≤ B := by
    have : rb * (p.toNat * S) ≤ B * (p.toNat * S) := by
      have := s5.1
      nlinarith
    exact Nat.le_of_mul_le_mul_right this (Nat.mul_pos s2 s1)
  have hS : (0 : ℚ) < S := by exact_mod_cast s1
  have hw' : worth p.toNat (A - ra) (B - rb) + (ra + p.toNat * rb) = worth p.toNat A B := by
    obtain ⟨A', rfl⟩ := Nat.exists_eq_add_of_le la
    obtain ⟨B', rfl⟩ := Nat.exists_eq_add_of_le lb
    rw [Nat.add_sub_cancel_left, Nat.add_sub_cancel_left]
    unfold worth
    ring
  have hq : (worth p.toNat (A - ra) (B - rb) : ℚ) + (ra + p.toNat * rb) = worth p.toNat A B := by
    exact_mod_cast hw'
  have hlt : (n * worth p.toNat A B : ℚ) < S * (ra + p.toNat * rb) + n + S + p.toNat * S := by
    have : n * worth p.toNat A B < S * (ra + p.toNat * rb) + n + S + p.toNat * S := u2
    exact_mod_cast this
  have hnS : (n : ℚ) ≤ S := by exact_mod_cast hn
  have : (n * worth p.toNat A B / S : ℚ) ≤ ra + p.toNat * rb + p.toNat + 2 := by
    rw [div_le_iff₀ hS]
    nlinarith
  linarith

/-- C80.  One-sided withdrawals pay what the pool tokens they burn stand for, less at most one pool
token's worth, whatever the fees. -/
theorem C80_single (w w' : World) (hr : Reachable env K w) (s : SwapV1) (p : UInt64)
    (signers : List Pubkey) (a : WithdrawSingleAccounts) (q y : UInt64)
    (hp : PoolAt env w a.swap s) (hl : s.swap_curve = .constantPrice p)
    (hs : ∀ x ∈ signers, ¬ IsPda env K x)
    (h : exec env signers (.withdrawSingle a q y) w = .ok w') :
    claim w s p.toNat (shares w s - shares w' s) + vaultsWorth w' s p.toNat <
      vaultsWorth w s p.toNat + claim w s p.toNat 1 := by
  obtain ⟨w0, hw0, hst⟩ := hr
  obtain ⟨hK, ⟨x, hc⟩, hcf⟩ := reachable_pool he hw0 hst _ s hp
  obtain ⟨n, dir, hn0, hn, hres, _, g1, g2, g3⟩ := withdrawSingle_exact hK hp hc hcf hs h
  rw [hl] at hres
  have u := C55_withdraw_single env.spl p q.toNat _ _ _ n dir s.fees hcf.fees q.toNat_lt hn0 hres
  have e1 : ∀ u, vaultsWorth u s p.toNat = worth p.toNat (nbal u s.token_a) (nbal u s.token_b) :=
    fun _ => rfl
  have e2 : ∀ u, shares u s = nsup u s.pool_mint := fun _ => rfl
  unfold claim
  rw [e1, e1, e2, e2, show nsup w s.pool_mint - nsup w' s.pool_mint = n by omega]
  have hS : (0 : ℚ) < nsup w s.pool_mint := by
    have : 0 < nsup w s.pool_mint := by omega
    exact_mod_cast this
  have hcount : worthOf p.toNat dir (counted s.fees q.toNat) ≤ worthOf p.toNat dir q.toNat := by
    have : counted s.fees q.toNat ≤ q.toNat := Nat.sub_le _ _
    cases dir with
    | AtoB => exact this
    | BtoA => exact Nat.mul_le_mul_left _ this
  have hw : worth p.toNat (nbal w' s.token_a) (nbal w' s.token_b) + worthOf p.toNat dir q.toNat =
      worth p.toNat (nbal w s.token_a) (nbal w s.token_b) := by
    cases dir with
    | AtoB =>
      have g2 : nbal w' s.token_a + q.toNat = nbal w s.token_a := g2
      have g3 : nbal w' s.token_b = nbal w s.token_b := g3
      rw [← g2, g3]
      unfold worth worthOf
      simp only []
      omega
    | BtoA =>
      have g2 : nbal w' s.token_b + q.toNat = nbal w s.token_b := g2
      have g3 : nbal w' s.token_a = nbal w s.token_a := g3
      rw [← g2, g3]
      unfold worth worthOf
      simp only []
      ring
  have hq : (worth p.toNat (nbal w' s.token_a) (nbal w' s.token_b) : ℚ) + worthOf p.toNat dir q.toNat =
      worth p.toNat (nbal w s.token_a) (nbal w s.token_b) := by exact_mod_cast hw
  have hu : (n * worth p.toNat (nbal w s.token_a) (nbal w s.token_b) : ℚ) <
      nsup w s.pool_mint * worthOf p.toNat dir q.toNat +
        worth p.toNat (nbal w s.token_a) (nbal w s.token_b) := by
    have h1 := Nat.mul_le_mul_left (nsup w s.pool_mint) hcount
    have : n * worth p.toNat (nbal w s.token_a) (nbal w s.token_b) <
      nsup w s.pool_mint * worthOf p.toNat dir q.toNat +
        worth p.toNat (nbal w s.token_a) (nbal w s.token_b) := by
      have := u.2
      omega
    exact_mod_cast this
  generalize worth p.toNat (nbal w s.token_a) (nbal w s.token_b) = V at *
  have : (n * V / nsup w s.pool_mint : ℚ) <
      worthOf p.toNat dir q.toNat + (1 : Nat) * V / nsup w s.pool_mint := by
    rw [Nat.cast_one, one_mul, div_lt_iff₀ hS, add_mul, div_mul_cancel₀ _ (ne_of_gt hS)]
    linarith
  linarith

/-- C80.  Without a withdrawal fee, burning pool tokens for both tokens is refused whenever half of
what they stand for is 2^64 token A or more, however many token A the vault holds and whatever minimum
the user accepts. -/
theorem C80_refused (w w' : World) (hr : Reachable env K w) (s : SwapV1) (p : UInt64)
    (signers : List Pubkey) (a : WithdrawAllAccounts) (q y z : UInt64)
    (hp : PoolAt env w a.swap s) (hl : s.swap_curve = .constantPrice p)
    (hs : ∀ x ∈ signers, ¬ IsPda env K x) (hf : s.fees.owner_withdraw_fee_numerator = 0)
    (hbig : 2 ^ 64 * shares w s ≤ q.toNat * (vaultsWorth w s p.toNat / 2)) :
    exec env signers (.withdrawAll a q y z) w ≠ .ok w' := by
  intro h
  obtain ⟨w0, hw0, hst⟩ := hr
  obtain ⟨hK, ⟨x, hc⟩, hcf⟩ := reachable_pool he hw0 hst _ s hp
  obtain ⟨n, r, _, hn, hnq, hres, la, _⟩ := withdrawAll_exact hK hp hc hcf hs h
  rw [hl] at hres
  obtain ⟨s1, s2, _, s4, _⟩ := (ConstantPrice.share_floor (e := env.spl)
    (nbal_lt w s.token_a) (nbal_lt w s.token_b) _).1 hres
  rw [hnq hf] at s4
  have h1 : 2 ^ 64 * nsup w s.pool_mint < (r.token_a_amount + 1) * nsup w s.pool_mint :=
    lt_of_le_of_lt hbig s4.2
  have := Nat.lt_of_mul_lt_mul_right h1
  omega

/-- Withdrawing one side without fees, at the exact price. -/
theorem leave_side {w : World} (hr : Reachable env K w) {k : Pubkey} {s : SwapV1} {p : UInt64}
    (hp : PoolAt env w k s) (hl : s.swap_curve = .constantPrice p) {pda : Pubkey}
    (hpda : env.createPda k s.bump_seed = some pda) {signers : List Pubkey}
    (hs : ∀ x ∈ signers, ¬ IsPda env K x) {u : Pubkey} (hu : u ∈ signers) {dir : TradeDirection}
    {src dst : Pubkey} (h0 : s.fees.trade_fee_numerator = 0)
    (h1 : s.fees.owner_withdraw_fee_numerator = 0 ∨ s.pool_fee_account = src) {x q : UInt64} {m : Nat}
    (hx0 : 0 < x.toNat) (hx : (x.toNat : Int) ≤ bal w (vaultIn s dir))
    (hm : Up (shares w s * worthOf p.toNat dir x.toNat) (vaultsWorth w s p.toNat) m) (hm0 : 0 < m)
    (hpos : 0 < vaultsWorth w s p.toNat)
    (hge : vaultsWorth w s p.toNat ≤ shares w s * worthOf p.toNat dir x.toNat)
    (hmS : m ≤ shares w s) (hmq : m ≤ q.toNat)
    (hpay : CanPay env w src s.pool_mint u m) (hth : Thawed w (vaultIn s dir))
    (hrecv : CanReceive env w dst (mintIn s dir) x.toNat) (hsd : dst ≠ src)
    (hdst : dst ≠ vaultIn s dir) (hdf : dst ≠ s.pool_fee_account) :
    ∃ w', exec env signers (.withdrawSingle ⟨k, pda, u, s.pool_mint, src, s.token_a, s.token_b,
        dst, s.pool_fee_account, env.tokenProgramId⟩ x q) w = .ok w' ∧ Frame w w' ∧
      Step env K w w' ∧ shares w' s = shares w s - m ∧ bal w' src = bal w src - m ∧
      bal w' dst = bal w dst + x.toNat ∧
      bal w' (vaultIn s dir) = bal w (vaultIn s dir) - x.toNat ∧
      bal w' (vaultOut s dir) = bal w (vaultOut s dir) ∧
      (∀ j, j ≠ src → j ≠ dst → j ≠ vaultIn s dir → bal w' j = bal w j) := by
  obtain ⟨w0, hw0, hst⟩ := id hr
  obtain ⟨hK, ⟨pd, hc⟩, hcf⟩ := reachable_pool he hw0 hst k s hp
  obtain ⟨tA, hA⟩ : ∃ t, tokenAt w s.token_a = some t := by
    obtain ⟨_, t, ht, _⟩ := hc.vaultA; exact ⟨t, tokenAt_some.2 ht⟩
  obtain ⟨tB, hB⟩ : ∃ t, tokenAt w s.token_b = some t := by
    obtain ⟨_, t, ht, _⟩ := hc.vaultB; exact ⟨t, tokenAt_some.2 ht⟩
  obtain ⟨pm, hM⟩ : ∃ t, mintAt w s.pool_mint = some t := by
    obtain ⟨_, t, ht, _⟩ := hc.minter; exact ⟨t, mintAt_some.2 ht⟩
  have eA : nbal w s.token_a = tA.amount.toNat := nbal_token (tokenAt_some.1 hA)
  have eB : nbal w s.token_b = tB.amount.toNat := nbal_token (tokenAt_some.1 hB)
  have eS : nsup w s.pool_mint = pm.supply.toNat := nsup_mint (mintAt_some.1 hM)
  have e1 : vaultsWorth w s p.toNat = worth p.toNat tA.amount.toNat tB.amount.toNat := by
    rw [← eA, ← eB]; rfl
  have e2 : shares w s = pm.supply.toNat := eS
  rw [e1] at hm hpos hge
  rw [e2] at hm hge hmS
  have hcount : counted s.fees x.toNat = x.toNat := by
    unfold counted feeOf
    rw [h0]
    simp
  have hm64 : m < 2 ^ 64 := lt_of_le_of_lt hmS pm.supply.toNat_lt
  have hq : s.swap_curve.withdrawSingle env.spl x.toNat tA.amount.toNat tB.amount.toNat
      pm.supply.toNat dir s.fees = .ok m := by
    obtain ⟨fee, k1, k2, _⟩ := counted_ok hcf.fees x.toNat_lt (Nat.pos_iff_ne_zero.1 hx0)
    rw [hl]
    unfold Curve.withdrawSingle
    rw [if_neg (Nat.pos_iff_ne_zero.1 hx0), cdiv_ok (by decide), Res.ok_bind, k1, Res.ok_bind, k2,
      Res.ok_bind, hcount]
    exact ConstantPrice.trading_ceil_eq (e := env.spl) x.toNat_lt tA.amount.toNat_lt tB.amount.toNat_lt
      pm.supply.toNat_lt hpos hge hm (lt_trans hm64 (by decide))
  have hfee0 : s.pool_fee_account ≠ src → s.fees.ownerWithdrawFee m = .ok 0 := by
    intro hne
    rcases h1 with h1 | h1
    · unfold Fees.ownerWithdrawFee calculateFee
      rw [if_pos (Or.inl (by rw [h1]; rfl))]
    · exact absurd h1 hne
  obtain ⟨w', hw'⟩ := C53_withdraw_single env K he w hr k s hp pda hpda signers u hu (hs u hu) dir src
    dst x q tA tB pm hA hB hM 0 m hq (by
      split
      · rfl
      · rename_i hne; exact hfee0 hne) (by omega) (by omega) hpay hmS
    (fun h => absurd h (Nat.lt_irrefl 0)) hth hx hrecv hdst hdf
  refine ⟨w', hw', ?_⟩
  obtain ⟨ts, tA', tB', pm', dir', vault, fee, burnt, q1, q2, q3, q4, q5, q6, q7, q8, _, _, q9, _, _,
    ef⟩ := C31_withdraw_single env signers _ x q w w' hw'
  have ets := unpackSwap_of q1
  rw [unpackSwap_of hp] at ets
  cases ets
  rw [hA] at q2; cases q2
  rw [hB] at q3; cases q3
  rw [hM] at q4; cases q4
  have hdm := hrecv.mintOf
  have ed : dir' = dir ∧ vault = vaultIn s dir := by
    rw [show mintOf w dst = mintOf w vault from q9] at hdm
    rcases q5 with ⟨rfl, rfl⟩ | ⟨rfl, rfl⟩
    · rw [hc.vaultA.mint] at hdm
      cases dir with
      | AtoB => exact ⟨rfl, rfl⟩
      | BtoA => exact absurd (Option.some.inj hdm) hc.mints
    · rw [hc.vaultB.mint] at hdm
      cases dir with
      | AtoB => exact absurd (Option.some.inj hdm).symm hc.mints
      | BtoA => exact ⟨rfl, rfl⟩
  obtain ⟨rfl, rfl⟩ := ed
  rw [hq] at q6
  have eb := Res.ok.inj q6
  subst eb
  have ef0 : fee = 0 := by
    by_cases e : src = s.pool_fee_account
    · exact q7 e
    · have := q8 e
      rw [hfee0 (fun e' => e e'.symm)] at this
      exact (Res.ok.inj this).symm
  subst ef0
  have hx' := hc.isPda hK
  have hbal : ∀ j, bal w' j = bal w j - when (j = src) m + when (j = dst) x.toNat -
      when (j = vaultIn s dir') x.toNat := by
    intro j
    have := ef.bal j
    simp only [Nat.cast_zero, when_zero] at this
    omega
  obtain ⟨so, st, hst1, _, su, _⟩ := hpay
  have nv : src ≠ vaultIn s dir' := by
    intro e
    have sp : ∀ {v mm : Pubkey}, SoleOwner env w v mm pd → src ≠ v := by
      rintro v mm ⟨_, t, ht, _, ho, _⟩ rfl
      rw [tokenAt_some.2 ht] at hst1
      cases hst1
      exact hs u hu (by rw [← su, ho]; exact hx')
    cases dir' with
    | AtoB => exact sp hc.vaultA e
    | BtoA => exact sp hc.vaultB e
  have no : vaultOut s dir' ≠ src ∧ vaultOut s dir' ≠ dst ∧ vaultOut s dir' ≠ vaultIn s dir' := by
    have sp : ∀ {v mm : Pubkey}, SoleOwner env w v mm pd → v ≠ src := by
      rintro v mm ⟨_, t, ht, _, ho, _⟩ rfl
      rw [tokenAt_some.2 ht] at hst1
      cases hst1
      exact hs u hu (by rw [← su, ho]; exact hx')
    have hab := vault_ne hc
    cases dir' with
    | AtoB =>
      refine ⟨sp hc.vaultB, ?_, hab.symm⟩
      intro e
      have e : s.token_b = dst := e
      rw [← e, hc.vaultB.mint] at hdm
      exact hc.mints (Option.some.inj hdm).symm
    | BtoA =>
      refine ⟨sp hc.vaultA, ?_, hab⟩
      intro e
      have e : s.token_a = dst := e
      rw [← e, hc.vaultA.mint] at hdm
      exact hc.mints (Option.some.inj hdm)
  refine ⟨ef.frame,
    .instr signers (.withdrawSingle ⟨k, pda, u, s.pool_mint, src, s.token_a, s.token_b, dst,
      s.pool_fee_account, env.tokenProgramId⟩ x q) hK hs hw', ?_, ?_, ?_, ?_, ?_, ?_⟩
  · have := ef.supply s.pool_mint
    have e3 := nsup_cast w' s.pool_mint
    have e4 := nsup_cast w s.pool_mint
    rw [when_pos rfl] at this
    show nsup w' s.pool_mint = nsup w s.pool_mint - m
    omega
  · rw [hbal, when_pos rfl, when_neg hsd.symm, when_neg nv]; omega
  · rw [hbal, when_neg hsd, when_pos rfl, when_neg hdst]; omega
  · rw [hbal, when_neg nv.symm, when_neg hdst.symm, when_pos rfl]; omega
  · rw [hbal, when_neg no.1, when_neg no.2.1, when_neg no.2.2]; omega
  · intro j j1 j2 j3
    rw [hbal, when_neg j1, when_neg j2, when_neg j3]; omega

/-- C80.  When one vault is empty, whoever holds all the pool tokens takes out everything with one
one-sided withdrawal (no trade fee; no withdrawal fee, or the holder is its recipient). -/
theorem C80_last (w : World) (hr : Reachable env K w) (k : Pubkey) (s : SwapV1) (p : UInt64)
    (hp : PoolAt env w k s) (hl : s.swap_curve = .constantPrice p) (pda : Pubkey)
    (hpda : env.createPda k s.bump_seed = some pda) (signers : List Pubkey)
    (hs : ∀ x ∈ signers, ¬ IsPda env K x) (u : Pubkey) (hu : u ∈ signers) (dir : TradeDirection)
    (src dst : Pubkey) (h0 : s.fees.trade_fee_numerator = 0)
    (h1 : s.fees.owner_withdraw_fee_numerator = 0 ∨ s.pool_fee_account = src) (x q : UInt64)
    (hx : (x.toNat : Int) = bal w (vaultIn s dir)) (hempty : bal w (vaultOut s dir) = 0)
    (hpos : 0 < vaultsWorth w s p.toNat) (hS : 0 < shares w s) (hq : q.toNat = shares w s)
    (hpay : CanPay env w src s.pool_mint u (shares w s)) (hth : Thawed w (vaultIn s dir))
    (hrecv : CanReceive env w dst (mintIn s dir) x.toNat) (hsd : dst ≠ src)
    (hdst : dst ≠ vaultIn s dir) (hdf : dst ≠ s.pool_fee_account) :
    ∃ w', exec env signers (.withdrawSingle ⟨k, pda, u, s.pool_mint, src, s.token_a, s.token_b,
        dst, s.pool_fee_account, env.tokenProgramId⟩ x q) w = .ok w' ∧ shares w' s = 0 ∧
      bal w' s.token_a = 0 ∧ bal w' s.token_b = 0 ∧ bal w' dst = bal w dst + bal w (vaultIn s dir) := by
  have eV : vaultsWorth w s p.toNat = worthOf p.toNat dir x.toNat := by
    unfold vaultsWorth worth
    cases dir with
    | AtoB =>
      have hx : (x.toNat : Int) = bal w s.token_a := hx
      have hempty : bal w s.token_b = 0 := hempty
      rw [hempty, ← hx]
      show x.toNat + p.toNat * 0 = x.toNat
      omega
    | BtoA =>
      have hx : (x.toNat : Int) = bal w s.token_b := hx
      have hempty : bal w s.token_a = 0 := hempty
      rw [hempty, ← hx]
      show 0 + p.toNat * x.toNat = p.toNat * x.toNat
      omega
  have hx0 : 0 < x.toNat := by
    rcases Nat.eq_zero_or_pos x.toNat with e | e
    · rw [eV, e] at hpos
      cases dir
      · exact absurd hpos (Nat.lt_irrefl _)
      · exact absurd hpos (Nat.lt_irrefl _)
    · exact e
  obtain ⟨w', k1, _, _, k3, _, k5, k6, k7, _⟩ := leave_side env K he hr hp hl hpda hs hu (dir := dir)
    (src := src) (dst := dst) h0 h1 (x := x) (q := q) (m := shares w s) hx0 (le_of_eq hx)
    (by rw [eV]; exact ⟨le_refl _, by rw [eV] at hpos; omega⟩) hS hpos
    (by rw [← eV]; exact Nat.le_mul_of_pos_left _ hS) (le_refl _) (by omega) hpay hth hrecv hsd hdst hdf
  refine ⟨w', k1, by omega, ?_, ?_, by omega⟩
  · cases dir with
    | AtoB => rw [show s.token_a = vaultIn s .AtoB from rfl]; omega
    | BtoA => rw [show s.token_a = vaultOut s .BtoA from rfl]; omega
  · cases dir with
    | AtoB => rw [show s.token_b = vaultOut s .AtoB from rfl]; omega
    | BtoA => rw [show s.token_b = vaultIn s .BtoA from rfl]; omega

/-- C80.  Whoever holds all the pool tokens of a pool whose two vaults are each worth at least one pool
token takes out everything with two one-sided withdrawals, first all of token A and then all of token B
(no trade fee; no withdrawal fee, or the holder is its recipient). -/
theorem C80_everything (w : World) (hr : Reachable env K w) (k : Pubkey) (s : SwapV1) (p : UInt64)
    (hp : PoolAt env w k s) (hl : s.swap_curve = .constantPrice p) (pda : Pubkey)
    (hpda : env.createPda k s.bump_seed = some pda) (signers : List Pubkey)
    (hs : ∀ x ∈ signers, ¬ IsPda env K x) (u : Pubkey) (hu : u ∈ signers)
    (src dstA dstB : Pubkey) (h0 : s.fees.trade_fee_numerator = 0)
    (h1 : s.fees.owner_withdraw_fee_numerator = 0 ∨ s.pool_fee_account = src) (x y q : UInt64)
    (hx : (x.toNat : Int) = bal w s.token_a) (hy : (y.toNat : Int) = bal w s.token_b)
    (hA : vaultsWorth w s p.toNat ≤ shares w s * x.toNat)
    (hB : vaultsWorth w s p.toNat ≤ shares w s * (p.toNat * y.toNat))
    (hpos : 0 < vaultsWorth w s p.toNat) (hq : q.toNat = shares w s)
    (hpay : CanPay env w src s.pool_mint u (shares w s)) (hthA : Thawed w s.token_a)
    (hthB : Thawed w s.token_b) (hrecvA : CanReceive env w dstA s.token_a_mint x.toNat)
    (hrecvB : CanReceive env w dstB s.token_b_mint y.toNat) (hA1 : dstA ≠ src) (hA2 : dstA ≠ s.token_a)
    (hA3 : dstA ≠ s.pool_fee_account) (hB1 : dstB ≠ src) (hB2 : dstB ≠ s.token_b)
    (hB3 : dstB ≠ s.pool_fee_account) :
    ∃ w1 w2, exec env signers (.withdrawSingle ⟨k, pda, u, s.pool_mint, src, s.token_a, s.token_b,
        dstA, s.pool_fee_account, env.tokenProgramId⟩ x q) w = .ok w1 ∧
      exec env signers (.withdrawSingle ⟨k, pda, u, s.pool_mint, src, s.token_a, s.token_b,
        dstB, s.pool_fee_account, env.tokenProgramId⟩ y q) w1 = .ok w2 ∧
      shares w2 s = 0 ∧ bal w2 s.token_a = 0 ∧ bal w2 s.token_b = 0 ∧
      bal w2 dstA = bal w dstA + bal w s.token_a ∧ bal w2 dstB = bal w dstB + bal w s.token_b := by
  obtain ⟨w0, hw0, hst⟩ := id hr
  obtain ⟨hK, ⟨pd, hc⟩, hcf⟩ := reachable_pool he hw0 hst k s hp
  have eV : vaultsWorth w s p.toNat = x.toNat + p.toNat * y.toNat := by
    unfold vaultsWorth worth
    rw [← hx, ← hy]
    rfl
  have hx0 : 0 < x.toNat := by
    rcases Nat.eq_zero_or_pos x.toNat with e | e
    · rw [e, Nat.mul_zero] at hA; omega
    · exact e
  have hy0 : 0 < p.toNat * y.toNat := by
    rcases Nat.eq_zero_or_pos (p.toNat * y.toNat) with e | e
    · rw [e, Nat.mul_zero] at hB; omega
    · exact e
  have hy0' : 0 < y.toNat := Nat.pos_of_mul_pos_left hy0
  have hS : 0 < shares w s := by
    rcases Nat.eq_zero_or_pos (shares w s) with e | e
    · rw [e, Nat.zero_mul] at hA; omega
    · exact e
  -- the price of all token A
  have hup := (up_iff (a := shares w s * worthOf p.toNat .AtoB x.toNat) hpos).2 rfl
  generalize hm : cd (shares w s * worthOf p.toNat .AtoB x.toNat) (vaultsWorth w s p.toNat) = m at hup
  have hup' : shares w s * x.toNat ≤ m * vaultsWorth w s p.toNat ∧
      m * vaultsWorth w s p.toNat < shares w s * x.toNat + vaultsWorth w s p.toNat := hup
  have hm0 : 0 < m := by
    rcases Nat.eq_zero_or_pos m with e | e
    · rw [e, Nat.zero_mul] at hup'
      have := Nat.mul_pos hS hx0
      omega
    · exact e
  have hmS : m < shares w s := by
    have e1 : shares w s * vaultsWorth w s p.toNat =
        shares w s * x.toNat + shares w s * (p.toNat * y.toNat) := by rw [eV, Nat.mul_add]
    have : m * vaultsWorth w s p.toNat < shares w s * vaultsWorth w s p.toNat := by omega
    exact Nat.lt_of_mul_lt_mul_right this
  obtain ⟨w1, k1, kf, ks, k3, k4, k5, k6, k7, k8⟩ := leave_side env K he hr hp hl hpda hs hu
    (dir := .AtoB) (src := src) (dst := dstA) h0 h1 (x := x) (q := q) (m := m) hx0 (le_of_eq hx) hup hm0
    hpos hA (by omega) (by omega) (hpay.frame (Frame.refl w) (by have := hpay.funds; omega)) hthA hrecvA
    hA1 hA2 hA3
  have k6 : bal w1 s.token_a = bal w s.token_a - x.toNat := k6
  have k7 : bal w1 s.token_b = bal w s.token_b := k7
  have hp1 : PoolAt env w1 k s := by
    have := step_pool hp ks
    exact poolAt_congr this.1 this.2 hp
  have hdA : dstA ≠ dstB := by
    intro e
    have m1 := hrecvA.mintOf
    rw [e, hrecvB.mintOf] at m1
    exact hc.mints (Option.some.inj m1).symm
  have hdB : dstB ≠ s.token_a := by
    intro e
    have m1 := hrecvB.mintOf
    rw [e, hc.vaultA.mint] at m1
    exact hc.mints (Option.some.inj m1)
  have hdA' : dstA ≠ s.token_b := by
    intro e
    have m1 := hrecvA.mintOf
    rw [e, hc.vaultB.mint] at m1
    exact hc.mints (Option.some.inj m1).symm
  have hB0 : bal w1 dstB = bal w dstB := k8 dstB hB1 hdA.symm hdB
  have eV1 : vaultsWorth w1 s p.toNat = p.toNat * y.toNat := by
    unfold vaultsWorth worth
    rw [k6, k7, ← hx, ← hy, Int.sub_self]
    show 0 + p.toNat * y.toNat = p.toNat * y.toNat
    omega
  obtain ⟨w2, j1, _, _, j3, _, j5, j6, j7, j8⟩ := leave_side env K he ⟨w0, hw0, hst.tail ks⟩ hp1 hl hpda
    hs hu (dir := .BtoA) (src := src) (dst := dstB) h0 h1 (x := y) (q := q) (m := shares w1 s) hy0'
    (le_of_eq (by rw [hy]; exact k7.symm))
    (by rw [eV1]; exact ⟨le_refl _, Nat.lt_add_of_pos_right hy0⟩) (by omega) (by omega)
    (by rw [eV1]; exact Nat.le_mul_of_pos_left _ (by omega)) (le_refl _) (by omega)
    (hpay.frame kf (by have := hpay.funds; omega)) (hthB.frame kf)
    (hrecvB.frame kf (by have := hrecvB.room; omega)) hB1 hB2 hB3
  have j6 : bal w2 s.token_b = bal w1 s.token_b - y.toNat := j6
  have j7 : bal w2 s.token_a = bal w1 s.token_a := j7
  have j8 : bal w2 dstA = bal w1 dstA := j8 dstA hA1 hdA hdA'
  exact ⟨w1, w2, k1, j1, by omega, by omega, by omega, by omega, by omega⟩

omit he

/-! ### What is left behind -/

/-- The holder of all the pool tokens burns them for both tokens. -/
def takeShare : Instr :=
  .withdrawAll ⟨Sample.key 2, Sample.key 130, Sample.key 50, Sample.key 15, Sample.key 17,
    Sample.key 13, Sample.key 14, Sample.key 30, Sample.key 31, Sample.key 16, Sample.key 101⟩
    1000000000 0 0

/-- Somebody buys all the token B of the pool without fees. -/
def buyOut : Instr :=
  .swap ⟨Sample.key 2, Sample.key 130, Sample.key 50, Sample.key 30, Sample.key 13, Sample.key 14,
    Sample.key 31, Sample.key 15, Sample.key 16, Sample.key 101⟩ 4900 700

/-- Somebody deposits a single token A, and takes out everything. -/
def oneIn : Instr :=
  .depositSingle ⟨Sample.key 2, Sample.key 130, Sample.key 50, Sample.key 30, Sample.key 13,
    Sample.key 14, Sample.key 15, Sample.key 17, Sample.key 101⟩ 1 1
def allOut : Instr :=
  .withdrawSingle ⟨Sample.key 2, Sample.key 130, Sample.key 50, Sample.key 15, Sample.key 17,
    Sample.key 13, Sample.key 14, Sample.key 30, Sample.key 16, Sample.key 101⟩ 4951 1000000000

theorem freePool_reachable : Reachable Sample.env samplePools freePool :=
  ⟨_, sample_start, sample_steps _ _ _ (by
    intro i hi
    simp only [List.mem_cons, List.not_mem_nil, or_false] at hi
    rw [hi]; exact Or.inr rfl) (ranTo_ok (by decide +kernel))⟩

theorem boughtOut_reachable : Reachable Sample.env samplePools (ranTo [buyOut] freePool) := by
  obtain ⟨w0, hw0, hst⟩ := freePool_reachable
  refine ⟨w0, hw0, hst.trans (sample_steps _ _ _ (by
    intro i hi
    simp only [List.mem_cons, List.not_mem_nil, or_false] at hi
    rw [hi]; exact Or.inr rfl) (ranTo_ok (by decide +kernel)))⟩

/-- C80 is false of the code: with all of token B sold, the pool tokens stand for 9900 token A, but
burning all of them pays 4950.  The rest stays in the vault of a pool without pool tokens; the next
depositor of one token A receives all pool tokens and takes it out. -/
theorem C80_left_behind :
    Sample.bals [13, 14, 17] (ranTo [buyOut] freePool) = [9900, 0, 1000000000] ∧
    Sample.after (Sample.run Sample.env [takeShare] (ranTo [buyOut] freePool))
      (Sample.bals [13, 14, 17]) = .ok [4950, 0, 0] ∧
    Sample.after (Sample.run Sample.env [takeShare] (ranTo [buyOut] freePool))
      (fun w => shares w poolFree) = .ok 0 ∧
    Sample.after (Sample.run Sample.env [takeShare, oneIn, allOut] (ranTo [buyOut] freePool))
      (Sample.bals [13, 14, 17]) = .ok [0, 0, 0] := by
  refine ⟨?_, ?_, ?_, ?_⟩ <;> decide +kernel

theorem C80_false : ¬ ∀ (env : Env) (K : Pubkey → Prop), EnvOk env K → C80_statement env K := by
  intro hall
  have v1 : vaultsWorth (ranTo [buyOut] freePool) poolFree 7 = 9900 := by decide +kernel
  have s1 : shares (ranTo [buyOut] freePool) poolFree = 1000000000 := by decide +kernel
  have v2 : vaultsWorth (ranTo [takeShare] (ranTo [buyOut] freePool)) poolFree 7 = 4950 := by
    decide +kernel
  have s2 : shares (ranTo [takeShare] (ranTo [buyOut] freePool)) poolFree = 0 := by decide +kernel
  have := hall Sample.env samplePools sample_ok (ranTo [buyOut] freePool)
    (ranTo [takeShare] (ranTo [buyOut] freePool)) poolFree 7 _ _ _ _ _ boughtOut_reachable
    (pool_of (by decide +kernel) (by decide +kernel)) rfl sample_signers
    (exec_ranTo (i := takeShare) (by decide +kernel))
  unfold claim at this
  rw [show (7 : UInt64).toNat = 7 from rfl, v1, v2, s1, s2] at this
  norm_num at this

/-! The hypotheses of the positive results are met on the sample ledgers. -/

/-- At 5000 token A and 700 token B, both vaults can pay a withdrawal of almost all pool tokens. -/
def takeMost : Instr :=
  .withdrawAll ⟨Sample.key 2, Sample.key 130, Sample.key 50, Sample.key 15, Sample.key 17,
    Sample.key 13, Sample.key 14, Sample.key 30, Sample.key 31, Sample.key 16, Sample.key 101⟩
    980000000 0 0

example : claim freePool poolFree 7 980000000 + vaultsWorth (ranTo [takeMost] freePool) poolFree 7 ≤
    (vaultsWorth freePool poolFree 7 + (7 : Nat) + 2 : ℚ) := by
  have := C80_share_partial Sample.env samplePools sample_ok freePool (ranTo [takeMost] freePool)
    freePool_reachable poolFree 7 _ _ _ _ _ (pool_of (by decide +kernel) (by decide +kernel)) rfl
    sample_signers (exec_ranTo (i := takeMost) (by decide +kernel)) (by decide +kernel)
    (by decide +kernel)
  rw [show shares freePool poolFree - shares (ranTo [takeMost] freePool) poolFree = 980000000 by
    decide +kernel] at this
  exact this

example : claim (ranTo [join] feePool) poolFee 7 (shares (ranTo [join] feePool) poolFee -
      shares (ranTo [leaveA] (ranTo [join] feePool)) poolFee) +
      vaultsWorth (ranTo [leaveA] (ranTo [join] feePool)) poolFee 7 <
    vaultsWorth (ranTo [join] feePool) poolFee 7 + claim (ranTo [join] feePool) poolFee 7 1 := by
  obtain ⟨w0, hw0, hst⟩ := feePool_reachable
  have st : Steps Sample.env samplePools feePool (ranTo [join] feePool) := sample_steps _ _ _ (by
    intro i hi
    simp only [List.mem_cons, List.not_mem_nil, or_false] at hi
    rw [hi]; exact Or.inr rfl) (ranTo_ok (by decide +kernel))
  exact C80_single Sample.env samplePools sample_ok _ _ ⟨w0, hw0, hst.trans st⟩ poolFee 7 _ _ _ _
    (pool_of (by decide +kernel) (by decide +kernel)) rfl sample_signers
    (exec_ranTo (i := leaveA) (by decide +kernel))

/-- A pool at a very high price: nobody can burn all pool tokens for both tokens. -/
def dearPool : World :=
  ranTo [.initConstantPrice Sample.init2 ⟨0, 1, 0, 1, 0, 1, 0, 1⟩ 4611686018427387904] Sample.start

example (w' : World) : exec Sample.env [Sample.key 1, Sample.key 2, Sample.key 50] takeShare dearPool ≠
    .ok w' :=
  C80_refused Sample.env samplePools sample_ok dearPool w' ⟨_, sample_start, sample_steps _ _ _ (by
      intro i hi
      simp only [List.mem_cons, List.not_mem_nil, or_false] at hi
      rw [hi]; exact Or.inr rfl) (ranTo_ok (by decide +kernel))⟩
    { poolFree with swap_curve := .constantPrice 4611686018427387904 } 4611686018427387904 _ _ _ _ _
    (pool_of (by decide +kernel) (by decide +kernel)) rfl sample_signers rfl (by decide +kernel)

/-- The holder of the pool tokens of the bought-out pool has it all with one one-sided withdrawal. -/
example : ∃ w', exec Sample.env [Sample.key 1, Sample.key 2, Sample.key 50]
      (.withdrawSingle ⟨Sample.key 2, Sample.key 130, Sample.key 50, Sample.key 15, Sample.key 17,
        Sample.key 13, Sample.key 14, Sample.key 30, Sample.key 16, Sample.key 101⟩ 9900 1000000000)
      (ranTo [buyOut] freePool) = .ok w' ∧ shares w' poolFree = 0 ∧ bal w' (Sample.key 13) = 0 ∧
    bal w' (Sample.key 14) = 0 ∧ bal w' (Sample.key 30) = 25000 := by
  obtain ⟨w', k1, k2, k3, k4, k5⟩ := C80_last Sample.env samplePools sample_ok (ranTo [buyOut] freePool)
    boughtOut_reachable (Sample.key 2) poolFree 7 (pool_of (by decide +kernel) (by decide +kernel)) rfl
    (Sample.key 130) (by decide +kernel) _ sample_signers (Sample.key 50) (by decide) .AtoB
    (Sample.key 17) (Sample.key 30) rfl (Or.inl rfl) 9900 1000000000 (by decide +kernel)
    (by decide +kernel) (by decide +kernel) (by decide +kernel) (by decide +kernel)
    ⟨by decide +kernel, plain 15 50 1000000000, by decide +kernel, rfl, rfl, by decide, rfl,
      by decide +kernel⟩
    ⟨plain 20 130 9900, by decide +kernel, rfl⟩
    ⟨by decide +kernel, plain 20 50 15100, by decide +kernel, rfl, rfl, by decide +kernel⟩
    (by decide) (by decide) (by decide)
  refine ⟨w', k1, k2, k3, k4, ?_⟩
  rw [k5]
  decide +kernel

/-- The holder of the pool tokens of the pool without fees has it all with two. -/
example : ∃ w1 w2, exec Sample.env [Sample.key 1, Sample.key 2, Sample.key 50]
      (.withdrawSingle ⟨Sample.key 2, Sample.key 130, Sample.key 50, Sample.key 15, Sample.key 17,
        Sample.key 13, Sample.key 14, Sample.key 30, Sample.key 16, Sample.key 101⟩ 5000 1000000000)
      freePool = .ok w1 ∧
    exec Sample.env [Sample.key 1, Sample.key 2, Sample.key 50]
      (.withdrawSingle ⟨Sample.key 2, Sample.key 130, Sample.key 50, Sample.key 15, Sample.key 17,
        Sample.key 13, Sample.key 14, Sample.key 31, Sample.key 16, Sample.key 101⟩ 700 1000000000)
      w1 = .ok w2 ∧ shares w2 poolFree = 0 ∧ bal w2 (Sample.key 13) = 0 ∧ bal w2 (Sample.key 14) = 0 := by
  obtain ⟨w1, w2, k1, k2, k3, k4, k5, _⟩ := C80_everything Sample.env samplePools sample_ok freePool
    freePool_reachable (Sample.key 2) poolFree 7 (pool_of (by decide +kernel) (by decide +kernel)) rfl
    (Sample.key 130) (by decide +kernel) _ sample_signers (Sample.key 50) (by decide)
    (Sample.key 17) (Sample.key 30) (Sample.key 31) rfl (Or.inl rfl) 5000 700 1000000000
    (by decide +kernel) (by decide +kernel) (by decide +kernel) (by decide +kernel) (by decide +kernel)
    (by decide +kernel)
    ⟨by decide +kernel, plain 15 50 1000000000, by decide +kernel, rfl, rfl, by decide, rfl,
      by decide +kernel⟩
    ⟨plain 20 130 5000, by decide +kernel, rfl⟩ ⟨plain 21 130 700, by decide +kernel, rfl⟩
    ⟨by decide +kernel, plain 20 50 20000, by decide +kernel, rfl, rfl, by decide +kernel⟩
    ⟨by decide +kernel, plain 21 50 20000, by decide +kernel, rfl, rfl, by decide +kernel⟩
    (by decide) (by decide) (by decide) (by decide) (by decide) (by decide)
  exact ⟨w1, w2, k1, k2, k3, k4, k5⟩

end Props
end Verif
