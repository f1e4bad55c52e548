import Verif.Lemmas.Guard
import Verif.Props.Live

/-
C58: what the token program protects stays protected through every instruction of the program.
-/

namespace Verif
namespace Props
open Spec Processor

/-- Whole instructions. -/
theorem exec_guard {env : Env} {signers : List Pubkey} {i : Instr} {w w' : World}
    (h : exec env signers i w = .ok w') :
    Guard i.signer
      (fun k => ∃ ts, PoolAt env w i.pool ts ∧ (k = ts.token_a ∨ k = ts.token_b)) w w' := by
  have init : ∀ {f : Fees} {c : Curve} {a : InitAccounts} {u : Pubkey} {X : Pubkey → Prop},
      processInitialize env signers f c a w = .ok w' → Guard u X w w' := by
    intro f c a u X hp
    obtain ⟨tA, tB, fa, de, pm, bytes, old, w1, r⟩ := processInitialize_ok hp
    have g := tokenMintTo_guard (u := u) (X := X) r.mint
    rw [r.write]
    exact g.1.trans g.2 (write_guard r.oldIs X)
  cases i with
  | initConstantPrice a f p => exact init (exec_init (.price a f p) h).2
  | initLinearPrice a c => exact init (exec_init (.linear a c) h).2
  | swap a x y =>
    obtain ⟨_, hp⟩ := exec_swap h
    obtain ⟨ts, src, dst, pm, r, pt, amtIn, amtOut, w1, w2, run⟩ := processSwap_ok hp
    exact (Guard.and_trans (Guard.and_trans (tokenTransfer_guard run.pay (Or.inl rfl))
      (ownerFeeStep_guard run.mint)) (tokenTransfer_guard run.payOut
        (Or.inr ⟨ts, poolAt_of run.owner run.state, run.dstIs⟩))).1
  | depositAll a x y z =>
    obtain ⟨_, hp⟩ := exec_depositAll h
    obtain ⟨ts, tA, tB, pm, r, amtA, amtB, amtP, w1, w2, run⟩ := processDepositAll_ok hp
    exact (Guard.and_trans (Guard.and_trans (tokenTransfer_guard run.payA (Or.inl rfl))
      (tokenTransfer_guard run.payB (Or.inl rfl))) (tokenMintTo_guard run.mint)).1
  | withdrawAll a x y z =>
    obtain ⟨_, hp⟩ := exec_withdrawAll h
    obtain ⟨ts, tA, tB, pm, fee, burnt, r, amtA, amtB, w1, w2, w3, run⟩ := processWithdrawAll_ok hp
    have hpool := poolAt_of run.checked.owner run.state
    exact (Guard.and_trans (Guard.and_trans (Guard.and_trans
      (tokenTransferIfPos_guard run.payFee (Or.inl rfl)) (tokenBurn_guard run.burn))
      (tokenTransferIfPos_guard run.payA (Or.inr ⟨ts, hpool, Or.inl run.checked.isA⟩)))
      (tokenTransferIfPos_guard run.payB (Or.inr ⟨ts, hpool, Or.inr run.checked.isB⟩))).1
  | depositSingle a x y =>
    obtain ⟨_, hp⟩ := exec_depositSingle h
    obtain ⟨ts, src, tA, tB, dir, pm, amtP, w1, run⟩ := processDepositSingle_ok hp
    exact (Guard.and_trans (tokenTransfer_guard run.pay (Or.inl rfl))
      (tokenMintTo_guard run.mint)).1
  | withdrawSingle a x y =>
    obtain ⟨_, hp⟩ := exec_withdrawSingle h
    obtain ⟨ts, dst, tA, tB, dir, pm, fee, burnt, w1, w2, run⟩ := processWithdrawSingle_ok hp
    have hpool := poolAt_of run.checked.owner run.state
    refine (Guard.and_trans (Guard.and_trans
      (tokenTransferIfPos_guard run.payFee (Or.inl rfl)) (tokenBurn_guard run.burn))
      (tokenTransfer_guard run.pay (Or.inr ⟨ts, hpool, ?_⟩))).1
    cases dir with
    | AtoB => exact Or.inl run.checked.isA
    | BtoA => exact Or.inr run.checked.isB

/-! ### C58 -/

/-- C58.  No instruction changes a frozen token account in any way. -/
theorem C58_frozen (env : Env) (signers : List Pubkey) (i : Instr) (w w' : World)
    (h : exec env signers i w = .ok w') (k : Pubkey) (hk : Frozen w k) : w' k = w k := by
  obtain ⟨t, h1, h2⟩ := hk
  exact (exec_guard h).frozen k t (tokenAt_some.1 h1) h2

/-- C58.  A swap needs all four trading accounts unfrozen; whoever can freeze a vault can halt
trading on the pool. -/
theorem C58_swap_thawed (env : Env) (signers : List Pubkey) (a : SwapAccounts) (x y : UInt64)
    (w w' : World) (h : exec env signers (.swap a x y) w = .ok w') (k : Pubkey)
    (hk : k ∈ [a.source, a.swapSource, a.swapDestination, a.destination]) : ¬ Frozen w k := by
  obtain ⟨_, hp⟩ := exec_swap h
  obtain ⟨ts, src, dst, pm, r, pt, amtIn, amtOut, w1, w2, run⟩ := processSwap_ok hp
  obtain ⟨h1, h2⟩ := tokenTransfer_thawed run.pay
  obtain ⟨h3, h4⟩ := tokenTransfer_thawed run.payOut
  obtain ⟨_, _, _, _, _, m1⟩ := tokenTransfer_ok run.pay
  have hf := m1.frame.trans (feeStep_effect run.mint).frame
  simp only [List.mem_cons, List.not_mem_nil, or_false] at hk
  rcases hk with rfl | rfl | rfl | rfl
  · exact h1
  · exact h2
  · exact fun hh => h3 (Frozen.keep hf hh)
  · exact fun hh => h4 (Frozen.keep hf hh)

/-- C58.  From an account that the signer of the instruction does not own, and that is not a vault
of the pool, at most the signer's allowance leaves, and the allowance shrinks by at least as much;
the allowances of all other delegates stay as they are. -/
theorem C58_allowance (env : Env) (signers : List Pubkey) (i : Instr) (w w' : World)
    (h : exec env signers i w = .ok w') (k : Pubkey) (t : TokenAccount) (hk : tokenAt w k = some t)
    (hv : ∀ ts, PoolAt env w i.pool ts → k ≠ ts.token_a ∧ k ≠ ts.token_b) :
    (t.owner ≠ i.signer →
      bal w k - bal w' k ≤ allowance w k i.signer - allowance w' k i.signer ∧
        0 ≤ allowance w' k i.signer) ∧
      ∀ v, v ≠ i.signer → allowance w' k v = allowance w k v := by
  have hx : ¬ ∃ ts, PoolAt env w i.pool ts ∧ (k = ts.token_a ∨ k = ts.token_b) := by
    rintro ⟨ts, h1, h2⟩
    rcases h2 with h2 | h2
    · exact (hv ts h1).1 h2
    · exact (hv ts h1).2 h2
  refine ⟨fun ho => ⟨(exec_guard h).spent k t (tokenAt_some.1 hk) ho hx, ?_⟩,
    (exec_guard h).others k t (tokenAt_some.1 hk) hx⟩
  unfold allowance
  split
  · split
    · exact Int.natCast_nonneg _
    · exact Int.le_refl 0
  · exact Int.le_refl 0

/-- The sample ledger where user 50 lets user 51 spend 2000 from account 30, and account 33 of token
A is frozen. -/
def delegated : World := Sample.ledger (
  (Sample.key 30, ⟨Sample.key 101, .token
    ⟨Sample.key 20, Sample.key 50, 20000, some (Sample.key 51), false, 2000, none⟩⟩) ::
  (Sample.key 33, ⟨Sample.key 101, .token
    ⟨Sample.key 20, Sample.key 51, 400, none, true, 0, none⟩⟩) :: Sample.accounts)

/-- User 51 trades on pool 2 from an account. -/
def tradeFrom (src : Pubkey) (x : UInt64) : Instr :=
  .swap ⟨Sample.key 2, Sample.key 130, Sample.key 51, src, Sample.key 13, Sample.key 14,
    Sample.key 31, Sample.key 15, Sample.key 16, Sample.key 101⟩ x 1

def runBy51 (i : Instr) : Except Err World := do
  let w ← exec Sample.env [Sample.key 2] Sample.initPrice delegated
  exec Sample.env [Sample.key 51] i w

example : Sample.after (runBy51 (tradeFrom (Sample.key 30) 1000)) (fun w =>
    [bal w (Sample.key 30), allowance w (Sample.key 30) (Sample.key 51),
      bal w (Sample.key 33)]) = .ok [19005, 1005, 400] := by decide +kernel
example : Sample.after (runBy51 (tradeFrom (Sample.key 30) 3000)) (fun w =>
    [bal w (Sample.key 30)]) = .error (.token .InsufficientFunds) := by decide +kernel
example : Sample.after (runBy51 (tradeFrom (Sample.key 33) 200)) (fun w =>
    [bal w (Sample.key 33)]) = .error (.token .AccountFrozen) := by decide +kernel
example : Frozen delegated (Sample.key 33) :=
  ⟨⟨Sample.key 20, Sample.key 51, 400, none, true, 0, none⟩, by decide +kernel, rfl⟩

end Props
end Verif
