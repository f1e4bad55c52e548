import Verif.Lemmas.Limit
import Verif.Props.Live

/-
C68: the limits of an instruction are thresholds at exactly the amounts moved.
-/

namespace Verif
namespace Props

open Spec Processor

variable (env : Env) (signers : List Pubkey) (w : World)

/-- A cut of the handler is one of the instruction. -/
theorem cut_exec {τ L : Type} {best : L} {P : τ → L → Prop} {Q : τ → World → Prop}
    {g : L → Except Err World} (f : L → Instr) (k : Pubkey) (T0 : τ) (h0 : ∀ y, P T0 y)
    (e : ∀ y, exec env signers (f y) w =
      (Verif.require (k ∈ signers) .MissingRequiredSignature >>= fun _ => g y))
    (h : Cut best P Q g) : Cut best P Q (fun y => exec env signers (f y) w) :=
  (Cut.bind (f := fun _ => g) T0 h0 (require_slip (by decide)) fun _ _ => h).congr e

/-- C68.  A swap's minimum: the instruction is the one without a minimum if the minimum is at most
what it pays out, and refused for its limit otherwise. -/
theorem C68_swap (a : SwapAccounts) (x : UInt64) :
    ∃ T, AtLeast (fun y => exec env signers (.swap a x y) w) T ∧
      ∀ w', exec env signers (.swap a x 0) w = .ok w' →
        ∃ (ts : SwapV1) (taken fee : Nat), PoolAt env w a.swap ts ∧ taken ≤ x.toNat ∧ Effect w w'
          (fun k => when (k = a.swapSource) taken - when (k = a.source) taken +
            when (k = a.destination) T - when (k = a.swapDestination) T +
            when (k = ts.pool_fee_account) fee)
          (fun k => when (k = ts.pool_mint) fee)
          [a.source, a.swapSource, a.swapDestination, a.destination, ts.pool_mint,
            ts.pool_fee_account] := by
  obtain ⟨T, h1, h2, h3, h4⟩ := cut_exec env signers w (fun y => .swap a x y) a.userAuthority U64
    u64_le (fun _ => rfl) (swap_cut (env := env) (signers := signers) x a w)
  refine ⟨T, ⟨h1, fun y => ⟨h2 y, fun h => h3 y (Nat.not_le.2 h)⟩⟩, fun w' hw => ?_⟩
  obtain ⟨ts, src, dst, r, q1, q2, q3, q4, rfl⟩ := h4 w' hw
  obtain ⟨_, hp⟩ := exec_swap hw
  obtain ⟨ts', src', dst', pm, r', pt, amtIn, amtOut, w1, w2, run⟩ := processSwap_ok hp
  obtain rfl : ts' = ts := Except.ok.inj (run.state.symm.trans q1)
  obtain rfl : src' = src := Except.ok.inj ((unpackTokenAccount_ok.2 run.srcTok).symm.trans q2)
  obtain rfl : dst' = dst := Except.ok.inj ((unpackTokenAccount_ok.2 run.dstTok).symm.trans q3)
  obtain rfl : r' = r := Res.ok.inj (run.result.symm.trans q4)
  exact ⟨_, _, _, poolAt_of run.owner run.state, (C07_swap_bounds _ _ _ _ _ _ _ _ run.result).1,
    run.effect⟩

/-- C68.  The minimum of a single-sided deposit. -/
theorem C68_deposit_single (a : DepositSingleAccounts) (x : UInt64) :
    ∃ T, AtLeast (fun y => exec env signers (.depositSingle a x y) w) T ∧
      ∀ w', exec env signers (.depositSingle a x 0) w = .ok w' →
        ∃ (ts : SwapV1) (vault : Pubkey), PoolAt env w a.swap ts ∧
          (vault = ts.token_a ∨ vault = ts.token_b) ∧ Effect w w'
          (fun k => when (k = vault) x.toNat - when (k = a.source) x.toNat +
            when (k = a.destination) T)
          (fun k => when (k = ts.pool_mint) T)
          [a.source, vault, ts.pool_mint, a.destination] := by
  obtain ⟨T, h1, h2, h3, h4⟩ := cut_exec env signers w (fun y => .depositSingle a x y)
    a.userAuthority U64 u64_le (fun _ => rfl)
    (depositSingle_cut (env := env) (signers := signers) x a w)
  refine ⟨T, ⟨h1, fun y => ⟨h2 y, fun h => h3 y (Nat.not_le.2 h)⟩⟩, fun w' hw => ?_⟩
  obtain ⟨ts, src, tA, tB, dir, pm, q1, q2, q3, q4, q5, q6, q7, q8⟩ := h4 w' hw
  obtain ⟨_, hp⟩ := exec_depositSingle hw
  obtain ⟨ts', src', tA', tB', dir', pm', amtP, w1, run⟩ := processDepositSingle_ok hp
  obtain rfl : ts' = ts := Except.ok.inj (run.state.symm.trans q1)
  obtain rfl : src' = src := Except.ok.inj ((unpackTokenAccount_ok.2 run.srcTok).symm.trans q2)
  obtain rfl : tA' = tA := Except.ok.inj ((unpackTokenAccount_ok.2 run.tokA).symm.trans q3)
  obtain rfl : tB' = tB := Except.ok.inj ((unpackTokenAccount_ok.2 run.tokB).symm.trans q4)
  obtain rfl : dir' = dir := Except.ok.inj (run.dirIs.symm.trans q5)
  obtain rfl : pm' = pm := Except.ok.inj ((unpackMint_ok.2 run.mintAcc).symm.trans q6)
  have hT : amtP.toNat = T := by
    rcases run.result with ⟨e1, e2⟩ | ⟨e1, e2⟩
    · rw [e2, q8 fun h => absurd e1 (Nat.ne_of_gt (UInt64.lt_iff_toNat_lt.1 h))]
    · exact Res.ok.inj (e2.symm.trans (q7 (UInt64.lt_iff_toNat_lt.2 e1)))
  subst hT
  refine ⟨_, sideOf dir' ts'.token_a ts'.token_b, poolAt_of run.checked.owner run.state, ?_,
    run.effect⟩
  cases dir'
  · exact Or.inl rfl
  · exact Or.inr rfl

/-- C68.  The maximum of a single-sided withdrawal. -/
theorem C68_withdraw_single (a : WithdrawSingleAccounts) (x : UInt64) :
    ∃ T, AtMost (fun y => exec env signers (.withdrawSingle a x y) w) T ∧
      ∀ w', exec env signers (.withdrawSingle a x largest) w = .ok w' →
        ∃ (ts : SwapV1) (vault : Pubkey) (burnt fee : Nat), PoolAt env w a.swap ts ∧
          (vault = ts.token_a ∨ vault = ts.token_b) ∧ burnt + fee = T ∧ Effect w w'
          (fun k => when (k = ts.pool_fee_account) fee - when (k = a.source) fee -
            when (k = a.source) burnt + when (k = a.destination) x.toNat -
            when (k = vault) x.toNat)
          (fun k => - when (k = ts.pool_mint) burnt)
          [a.source, ts.pool_fee_account, ts.pool_mint, vault, a.destination] := by
  obtain ⟨T, h1, h2, h3, h4⟩ := cut_exec env signers w (fun y => .withdrawSingle a x y)
    a.userAuthority 0 (fun y => Nat.zero_le _) (fun _ => rfl)
    (withdrawSingle_cut (env := env) (signers := signers) x a w)
  refine ⟨T, ⟨h1, fun y => ⟨h2 y, fun h => h3 y (Nat.not_le.2 h)⟩⟩, fun w' hw => ?_⟩
  obtain ⟨ts, dst, tA, tB, dir, pm, burnt, fee, q1, q2, q3, q4, q5, q6, q7, q8, q9, rfl⟩ := h4 w' hw
  obtain ⟨_, hp⟩ := exec_withdrawSingle hw
  obtain ⟨ts', dst', tA', tB', dir', pm', fee', burnt', w1, w2, run⟩ := processWithdrawSingle_ok hp
  obtain rfl : ts' = ts := Except.ok.inj (run.state.symm.trans q1)
  obtain rfl : dst' = dst := Except.ok.inj ((unpackTokenAccount_ok.2 run.dstTok).symm.trans q2)
  obtain rfl : tA' = tA := Except.ok.inj ((unpackTokenAccount_ok.2 run.tokA).symm.trans q3)
  obtain rfl : tB' = tB := Except.ok.inj ((unpackTokenAccount_ok.2 run.tokB).symm.trans q4)
  obtain rfl : dir' = dir := Except.ok.inj (run.dirIs.symm.trans q5)
  obtain rfl : pm' = pm := Except.ok.inj ((unpackMint_ok.2 run.mintAcc).symm.trans q6)
  obtain rfl : burnt'.toNat = burnt := Res.ok.inj (run.result.symm.trans q7)
  have hf : fee'.toNat = fee := by
    rcases run.feeIs with ⟨e1, e2⟩ | ⟨e1, e2⟩
    · rw [e2, q8 e1]
    · exact Res.ok.inj (e2.symm.trans (q9 e1))
  have he := run.effect
  have hfee : a.fee = ts'.pool_fee_account := by simpa using run.checked.isFee
  rw [hfee] at he
  refine ⟨ts', sideOf dir' ts'.token_a ts'.token_b, burnt'.toNat, fee'.toNat,
    poolAt_of run.checked.owner run.state, ?_, by rw [hf], he⟩
  cases dir'
  · exact Or.inl rfl
  · exact Or.inr rfl

/-- C68.  The two maxima of a two-sided deposit. -/
theorem C68_deposit_all (a : DepositAllAccounts) (p : UInt64) :
    ∃ T S, AtMostBoth (fun x y => exec env signers (.depositAll a p x y) w) T S ∧
      ∀ w', exec env signers (.depositAll a p largest largest) w = .ok w' →
        ∃ (ts : SwapV1) (pool : Nat), PoolAt env w a.swap ts ∧ Effect w w'
          (fun k => when (k = ts.token_a) T - when (k = a.sourceA) T +
            when (k = ts.token_b) S - when (k = a.sourceB) S + when (k = a.destination) pool)
          (fun k => when (k = ts.pool_mint) pool)
          [a.sourceA, ts.token_a, a.sourceB, ts.token_b, ts.pool_mint, a.destination] := by
  obtain ⟨⟨T, S⟩, h1, h2, h3, h4⟩ := cut_exec env signers w
    (fun y : UInt64 × UInt64 => .depositAll a p y.1 y.2)
    a.userAuthority (0, 0) (fun y => ⟨Nat.zero_le _, Nat.zero_le _⟩) (fun _ => rfl)
    (depositAll_cut (env := env) (signers := signers) p a w)
  refine ⟨T, S, ⟨h1, fun x y => ⟨h2 (x, y), fun h => h3 (x, y) ?_⟩⟩, fun w' hw => ?_⟩
  · rintro ⟨g1, g2⟩
    exact h.elim (fun h => absurd g1 (Nat.not_le.2 h)) (fun h => absurd g2 (Nat.not_le.2 h))
  obtain ⟨ts, tA, tB, pm, q1, q2, q3, q4, q5⟩ := h4 w' hw
  obtain ⟨_, hp⟩ := exec_depositAll hw
  obtain ⟨ts', tA', tB', pm', r, amtA, amtB, amtP, w1, w2, run⟩ := processDepositAll_ok hp
  obtain rfl : ts' = ts := Except.ok.inj (run.state.symm.trans q1)
  obtain rfl : tA' = tA := Except.ok.inj ((unpackTokenAccount_ok.2 run.tokA).symm.trans q2)
  obtain rfl : tB' = tB := Except.ok.inj ((unpackTokenAccount_ok.2 run.tokB).symm.trans q3)
  obtain rfl : pm' = pm := Except.ok.inj ((unpackMint_ok.2 run.mintAcc).symm.trans q4)
  have hr : r = ⟨T, S⟩ := Res.ok.inj (run.result.symm.trans q5)
  have eA : amtA.toNat = T := by rw [run.amtAIs, hr]
  have eB : amtB.toNat = S := by rw [run.amtBIs, hr]
  have he := run.effect
  rw [eA, eB] at he
  exact ⟨_, _, poolAt_of run.checked.owner run.state, he⟩

/-- C68.  The two minima of a two-sided withdrawal. -/
theorem C68_withdraw_all (a : WithdrawAllAccounts) (p : UInt64) :
    ∃ T S, AtLeastBoth (fun x y => exec env signers (.withdrawAll a p x y) w) T S ∧
      ∀ w', exec env signers (.withdrawAll a p 0 0) w = .ok w' →
        ∃ (ts : SwapV1) (fee burnt : Nat), PoolAt env w a.swap ts ∧ burnt + fee = p.toNat ∧
          Effect w w'
          (fun k => when (k = ts.pool_fee_account) fee - when (k = a.source) fee -
            when (k = a.source) burnt + when (k = a.destA) T - when (k = ts.token_a) T +
            when (k = a.destB) S - when (k = ts.token_b) S)
          (fun k => - when (k = ts.pool_mint) burnt)
          [a.source, ts.pool_fee_account, ts.pool_mint, ts.token_a, a.destA, ts.token_b,
            a.destB] := by
  obtain ⟨⟨T, S⟩, h1, h2, h3, h4⟩ := cut_exec env signers w
    (fun y : UInt64 × UInt64 => .withdrawAll a p y.1 y.2)
    a.userAuthority (U64, U64) (fun y => ⟨u64_le _, u64_le _⟩) (fun _ => rfl)
    (withdrawAll_cut (env := env) (signers := signers) p a w)
  refine ⟨T, S, ⟨h1, fun x y => ⟨h2 (x, y), fun h => h3 (x, y) ?_⟩⟩, fun w' hw => ?_⟩
  · rintro ⟨g1, g2⟩
    exact h.elim (fun h => absurd g1 (Nat.not_le.2 h)) (fun h => absurd g2 (Nat.not_le.2 h))
  obtain ⟨ts, tA, tB, pm, fee, burnt, r, q1, q2, q3, q4, q5, q6, q7, q8, q9⟩ := h4 w' hw
  obtain ⟨_, hp⟩ := exec_withdrawAll hw
  obtain ⟨ts', tA', tB', pm', fee', burnt', r', amtA, amtB, w1, w2, w3, run⟩ :=
    processWithdrawAll_ok hp
  obtain rfl : ts' = ts := Except.ok.inj (run.state.symm.trans q1)
  obtain rfl : tA' = tA := Except.ok.inj ((unpackTokenAccount_ok.2 run.tokA).symm.trans q2)
  obtain rfl : tB' = tB := Except.ok.inj ((unpackTokenAccount_ok.2 run.tokB).symm.trans q3)
  obtain rfl : pm' = pm := Except.ok.inj ((unpackMint_ok.2 run.mintAcc).symm.trans q4)
  have hf : fee'.toNat = fee := by
    rcases run.feeIs with ⟨e1, e2⟩ | ⟨e1, e2⟩
    · rw [e2, q5 e1]
    · exact Res.ok.inj (e2.symm.trans (q6 e1))
  have hb : burnt'.toNat = burnt := by
    have := run.burntIs
    omega
  have hres := run.result
  rw [hb] at hres
  obtain rfl : r' = r := Res.ok.inj (hres.symm.trans q8)
  have eA : amtA.toNat = T := by rw [run.amtAIs]; exact (congrArg Prod.fst q9).symm
  have eB : amtB.toNat = S := by rw [run.amtBIs]; exact (congrArg Prod.snd q9).symm
  have he := run.effect
  have hfee : a.fee = ts'.pool_fee_account := by simpa using run.checked.isFee
  rw [eA, eB, hfee] at he
  exact ⟨_, _, _, poolAt_of run.checked.owner run.state, run.burntIs, he⟩

/-! On the sample ledger the thresholds are the amounts moved: trading 1000 token A on pool 2 pays
139 token B, and a minimum of 139 goes through while 140 is refused for its limit; likewise for the
other instructions. -/

/-- Whether a run was refused for its limit. -/
def isSlip : Except Err World → Bool
  | .error e => decide (e = slip)
  | .ok _ => false

/-- The user's instructions on pool 2 with the limits left open. -/
def tradeFor (y : UInt64) : Instr :=
  .swap ⟨Sample.key 2, Sample.key 130, Sample.key 50, Sample.key 30, Sample.key 13, Sample.key 14,
    Sample.key 31, Sample.key 15, Sample.key 16, Sample.key 101⟩ 1000 y
def depAllFor (x y : UInt64) : Instr :=
  .depositAll ⟨Sample.key 2, Sample.key 130, Sample.key 50, Sample.key 30, Sample.key 31,
    Sample.key 13, Sample.key 14, Sample.key 15, Sample.key 17, Sample.key 101⟩ 100000000 x y
def wdAllFor (x y : UInt64) : Instr :=
  .withdrawAll ⟨Sample.key 2, Sample.key 130, Sample.key 50, Sample.key 15, Sample.key 17,
    Sample.key 13, Sample.key 14, Sample.key 30, Sample.key 31, Sample.key 16, Sample.key 101⟩
    100000000 x y
def depOneFor (y : UInt64) : Instr :=
  .depositSingle ⟨Sample.key 2, Sample.key 130, Sample.key 50, Sample.key 30, Sample.key 13,
    Sample.key 14, Sample.key 15, Sample.key 17, Sample.key 101⟩ 700 y
def wdOneFor (y : UInt64) : Instr :=
  .withdrawSingle ⟨Sample.key 2, Sample.key 130, Sample.key 50, Sample.key 15, Sample.key 17,
    Sample.key 13, Sample.key 14, Sample.key 30, Sample.key 16, Sample.key 101⟩ 700 y

/-- The user's instruction on the sample ledger. -/
def asks (i : Instr) : Except Err World := exec Sample.env [Sample.key 50] i live

example : isOk (asks (tradeFor 0)) = true ∧ isOk (asks (tradeFor 139)) = true ∧
    isSlip (asks (tradeFor 140)) = true := by decide +kernel

example : isOk (asks (depAllFor largest largest)) = true ∧
    isOk (asks (depAllFor 496 71)) = true ∧ isSlip (asks (depAllFor 495 71)) = true ∧
    isSlip (asks (depAllFor 496 70)) = true := by decide +kernel

example : isOk (asks (wdAllFor 0 0)) = true ∧ isOk (asks (wdAllFor 490 70)) = true ∧
    isSlip (asks (wdAllFor 491 70)) = true ∧ isSlip (asks (wdAllFor 490 71)) = true := by
  decide +kernel

example : isOk (asks (depOneFor 0)) = true ∧ isOk (asks (depOneFor 70584412)) = true ∧
    isSlip (asks (depOneFor 70584413)) = true := by decide +kernel

example : isOk (asks (wdOneFor largest)) = true ∧ isOk (asks (wdOneFor 71290257)) = true ∧
    isSlip (asks (wdOneFor 71290256)) = true := by decide +kernel

end Props
end Verif
