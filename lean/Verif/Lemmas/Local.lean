import Verif.Lemmas.Wire
import Verif.Spec.Local

/-
Instructions read and write only their own accounts: running on a ledger patched outside those
accounts gives the patched result.
-/

namespace Verif

open Spec Processor
open Wire (writable exec_writes)

/-- `w` on the accounts in `ks`, `u` elsewhere. -/
def mix (ks : List Pubkey) (u w : World) : World := fun k => if k ∈ ks then w k else u k

theorem mix_at {ks : List Pubkey} {u w : World} {k : Pubkey} (h : k ∈ ks) : mix ks u w k = w k := by
  simp [mix, h]

theorem mix_off {ks : List Pubkey} {u w : World} {k : Pubkey} (h : k ∉ ks) : mix ks u w k = u k := by
  simp [mix, h]

theorem mix_set {ks : List Pubkey} {u w : World} {k : Pubkey} (h : k ∈ ks) (d : Data) :
    (mix ks u w).setData k d = mix ks u (w.setData k d) := by
  funext x
  unfold World.setData
  by_cases hx : x = k
  · subst hx
    simp [mix, h]
  · by_cases hm : x ∈ ks <;> simp [mix, hx, hm]

theorem bind_mix {α β γ : Type} {x : Except Err α} {f : α → Except Err γ} {f' : α → Except Err β}
    {g : β → γ} (h : ∀ a, f a = (f' a).map g) : (x >>= f) = (x >>= f').map g := by
  cases x with
  | error e => rfl
  | ok a => exact h a

theorem ite_mix {α β γ : Type} {c : Prop} [Decidable c] {x y : Except Err α}
    {f : α → Except Err γ} {f' : α → Except Err β} {g : β → γ} (h : ∀ a, f a = (f' a).map g) :
    (if c then x >>= f else y >>= f) = (if c then x >>= f' else y >>= f').map g := by
  by_cases hc : c
  · rw [if_pos hc, if_pos hc]
    exact bind_mix h
  · rw [if_neg hc, if_neg hc]
    exact bind_mix h

theorem bind_map {α β γ δ : Type} {y : Except Err δ} {x : Except Err α} {f : δ → Except Err γ}
    {f' : α → Except Err β} {g : β → γ} {g' : α → δ} (hy : y = x.map g')
    (h : ∀ a, f (g' a) = (f' a).map g) : (y >>= f) = (x >>= f').map g := by
  subst hy
  cases x with
  | error e => rfl
  | ok a => exact h a

variable {env : Env} {signers : List Pubkey} {ks : List Pubkey} {u : World}

theorem getToken_mix {tp : Pubkey} {w : World} {k : Pubkey} (h : k ∈ ks) :
    Token.getToken tp (mix ks u w) k = Token.getToken tp w k := by
  unfold Token.getToken
  rw [mix_at h]

theorem getMint_mix {tp : Pubkey} {w : World} {k : Pubkey} (h : k ∈ ks) :
    Token.getMint tp (mix ks u w) k = Token.getMint tp w k := by
  unfold Token.getMint
  rw [mix_at h]

theorem unpackToken_mix {tp : Pubkey} {w : World} {k : Pubkey} (h : k ∈ ks) :
    unpackTokenAccount (mix ks u w) k tp = unpackTokenAccount w k tp := by
  unfold unpackTokenAccount
  rw [mix_at h]

theorem unpackMint_mix {tp : Pubkey} {w : World} {k : Pubkey} (h : k ∈ ks) :
    unpackMint (mix ks u w) k tp = unpackMint w k tp := by
  unfold unpackMint
  rw [mix_at h]

theorem unpackSwap_mix {w : World} {k : Pubkey} (h : k ∈ ks) :
    unpackSwap (mix ks u w) k = unpackSwap w k := by
  unfold unpackSwap
  rw [mix_at h]

theorem isInitialized_mix {w : World} {k : Pubkey} (h : k ∈ ks) :
    isInitialized (mix ks u w) k = isInitialized w k := by
  unfold isInitialized
  rw [mix_at h]

theorem checkAccounts_mix {w : World} {ts : SwapV1} {swap au tA tB pm tp : Pubkey}
    {uA uB fe : Option Pubkey} (h : swap ∈ ks) :
    Processor.checkAccounts env (mix ks u w) ts swap au tA tB pm tp uA uB fe =
      Processor.checkAccounts env w ts swap au tA tB pm tp uA uB fe := by
  unfold Processor.checkAccounts
  rw [mix_at h]

theorem transfer_mix {tp : Pubkey} {signed : Pubkey → Bool} {src dst au : Pubkey} {x : UInt64}
    {w : World} (h1 : src ∈ ks) (h2 : dst ∈ ks) :
    Token.transfer tp signed src dst au x (mix ks u w) =
      (Token.transfer tp signed src dst au x w).map (mix ks u) := by
  unfold Token.transfer
  rw [getToken_mix h1, getToken_mix h2]
  refine bind_mix fun s => bind_mix fun d => bind_mix fun _ => bind_mix fun _ => bind_mix fun _ =>
    bind_mix fun s' => ?_
  by_cases hc : src = dst
  · rw [if_pos hc, if_pos hc]
    rfl
  · rw [if_neg hc, if_neg hc]
    refine bind_mix fun sa => bind_mix fun da => ?_
    rw [mix_set h1, mix_set h2]
    rfl

theorem mintTo_mix {tp : Pubkey} {signed : Pubkey → Bool} {mint dst au : Pubkey} {x : UInt64}
    {w : World} (h1 : mint ∈ ks) (h2 : dst ∈ ks) :
    Token.mintTo tp signed mint dst au x (mix ks u w) =
      (Token.mintTo tp signed mint dst au x w).map (mix ks u) := by
  unfold Token.mintTo
  rw [getToken_mix h2, getMint_mix h1]
  refine bind_mix fun d => bind_mix fun _ => bind_mix fun _ => bind_mix fun m => bind_mix fun _ =>
    bind_mix fun _ => bind_mix fun da => bind_mix fun ms => ?_
  rw [mix_set h2, mix_set h1]
  rfl

theorem burn_mix {tp : Pubkey} {signed : Pubkey → Bool} {src mint au : Pubkey} {x : UInt64}
    {w : World} (h1 : src ∈ ks) (h2 : mint ∈ ks) :
    Token.burn tp signed src mint au x (mix ks u w) =
      (Token.burn tp signed src mint au x w).map (mix ks u) := by
  unfold Token.burn
  rw [getToken_mix h1, getMint_mix h2]
  refine bind_mix fun s => bind_mix fun m => bind_mix fun _ => bind_mix fun _ => bind_mix fun _ =>
    bind_mix fun s' => bind_mix fun sa => bind_mix fun ms => ?_
  rw [mix_set h1, mix_set h2]
  rfl

theorem tokenTransfer_mix {swap tp src dst au : Pubkey} {bump : UInt8} {x : UInt64} {w : World}
    (h1 : src ∈ ks) (h2 : dst ∈ ks) :
    tokenTransfer env signers swap tp src dst au bump x (mix ks u w) =
      (tokenTransfer env signers swap tp src dst au bump x w).map (mix ks u) := by
  unfold tokenTransfer
  exact bind_mix fun _ => bind_mix fun _ => transfer_mix h1 h2

theorem tokenMintTo_mix {swap tp mint dst au : Pubkey} {bump : UInt8} {x : UInt64} {w : World}
    (h1 : mint ∈ ks) (h2 : dst ∈ ks) :
    tokenMintTo env signers swap tp mint dst au bump x (mix ks u w) =
      (tokenMintTo env signers swap tp mint dst au bump x w).map (mix ks u) := by
  unfold tokenMintTo
  exact bind_mix fun _ => bind_mix fun _ => mintTo_mix h1 h2

theorem tokenBurn_mix {swap tp src mint au : Pubkey} {bump : UInt8} {x : UInt64} {w : World}
    (h1 : src ∈ ks) (h2 : mint ∈ ks) :
    tokenBurn env signers swap tp src mint au bump x (mix ks u w) =
      (tokenBurn env signers swap tp src mint au bump x w).map (mix ks u) := by
  unfold tokenBurn
  exact bind_mix fun _ => bind_mix fun _ => burn_mix h1 h2

theorem tokenTransferIfPos_mix {swap tp src dst au : Pubkey} {bump : UInt8} {x : UInt64}
    {w : World} (h1 : src ∈ ks) (h2 : dst ∈ ks) :
    tokenTransferIfPos env signers swap tp src dst au bump x (mix ks u w) =
      (tokenTransferIfPos env signers swap tp src dst au bump x w).map (mix ks u) := by
  unfold tokenTransferIfPos
  by_cases hc : x > 0
  · rw [if_pos hc, if_pos hc]
    exact tokenTransfer_mix h1 h2
  · rw [if_neg hc, if_neg hc]
    rfl

theorem writeState_mix {w : World} {k : Pubkey} {s : SwapV1} (h : k ∈ ks) :
    writeState env (mix ks u w) k s = (writeState env w k s).map (mix ks u) := by
  unfold writeState
  rw [mix_at h]
  cases (w k).data with
  | token t => rfl
  | mint m => rfl
  | raw l =>
    refine bind_mix fun bytes => bind_mix fun _ => ?_
    rw [mix_set h]
    rfl

theorem init_mix {fees : Fees} {curve : Curve} {a : InitAccounts} {w : World} (h1 : a.swap ∈ ks)
    (h2 : a.tokenA ∈ ks) (h3 : a.tokenB ∈ ks) (h4 : a.fee ∈ ks) (h5 : a.destination ∈ ks)
    (h6 : a.poolMint ∈ ks) :
    processInitialize env signers fees curve a (mix ks u w) =
      (processInitialize env signers fees curve a w).map (mix ks u) := by
  unfold processInitialize
  rw [isInitialized_mix h1, unpackToken_mix h2, unpackToken_mix h3, unpackToken_mix h4,
    unpackToken_mix h5, unpackMint_mix h6]
  refine bind_mix fun _ => bind_mix fun _ => bind_mix fun tA => bind_mix fun tB => bind_mix fun fa =>
    bind_mix fun de => bind_mix fun pm => bind_mix fun _ => bind_mix fun _ => bind_mix fun _ =>
    bind_mix fun _ => bind_mix fun _ => bind_mix fun _ => bind_mix fun _ => bind_mix fun _ =>
    bind_mix fun _ => bind_mix fun _ => bind_mix fun _ => bind_mix fun _ => bind_mix fun _ =>
    bind_mix fun _ => bind_mix fun _ => bind_mix fun _ => bind_mix fun _ => bind_mix fun initial =>
    bind_map (tokenMintTo_mix h6 h5) fun w1 => writeState_mix h1

theorem ownerFee_mix {ts : SwapV1} {a : SwapAccounts} {n : Nat} {w : World} (h1 : a.poolMint ∈ ks)
    (h2 : a.poolFee ∈ ks) :
    ownerFeeStep env signers ts a none n (mix ks u w) =
      (ownerFeeStep env signers ts a none n w).map (mix ks u) := by
  unfold ownerFeeStep hostFeeStep
  by_cases hc : n > 0
  · rw [if_pos hc, if_pos hc]
    refine bind_map (g' := fun r : Nat × World => (r.1, mix ks u r.2)) rfl fun r => ?_
    exact bind_mix fun amt => tokenMintTo_mix h1 h2
  · rw [if_neg hc, if_neg hc]
    rfl

theorem swap_mix {x y : UInt64} {a : SwapAccounts} {w : World} (h1 : a.swap ∈ ks)
    (h2 : a.source ∈ ks) (h3 : a.swapSource ∈ ks) (h4 : a.swapDestination ∈ ks)
    (h5 : a.destination ∈ ks) (h6 : a.poolMint ∈ ks) (h7 : a.poolFee ∈ ks) :
    processSwap env signers x y a none (mix ks u w) =
      (processSwap env signers x y a none w).map (mix ks u) := by
  unfold processSwap
  rw [unpackSwap_mix h1, mix_at h1]
  refine bind_mix fun _ => bind_mix fun ts => bind_mix fun aid => bind_mix fun _ =>
    bind_mix fun _ => bind_mix fun _ => bind_mix fun _ => bind_mix fun _ => bind_mix fun _ =>
    bind_mix fun _ => bind_mix fun _ => bind_mix fun _ => ?_
  rw [unpackToken_mix h3, unpackToken_mix h4, unpackMint_mix h6]
  refine bind_mix fun src => bind_mix fun dst => bind_mix fun pm => bind_mix fun r =>
    bind_mix fun _ => bind_mix fun amtIn => bind_map (tokenTransfer_mix h2 h3) fun w1 =>
    bind_mix fun pt => bind_map (ownerFee_mix h6 h7) fun w2 => bind_mix fun amtOut =>
    tokenTransfer_mix h4 h5

theorem depositAll_mix {x y z : UInt64} {a : DepositAllAccounts} {w : World} (h1 : a.swap ∈ ks)
    (h2 : a.sourceA ∈ ks) (h3 : a.sourceB ∈ ks) (h4 : a.tokenA ∈ ks) (h5 : a.tokenB ∈ ks)
    (h6 : a.poolMint ∈ ks) (h7 : a.destination ∈ ks) :
    processDepositAll env signers x y z a (mix ks u w) =
      (processDepositAll env signers x y z a w).map (mix ks u) := by
  unfold processDepositAll
  rw [unpackSwap_mix h1]
  refine bind_mix fun ts => bind_mix fun _ => ?_
  rw [checkAccounts_mix h1, unpackToken_mix h4, unpackToken_mix h5, unpackMint_mix h6]
  refine bind_mix fun _ => bind_mix fun tA => bind_mix fun tB => bind_mix fun pm =>
    bind_mix fun r => bind_mix fun amtA => bind_mix fun _ => bind_mix fun _ => bind_mix fun amtB =>
    bind_mix fun _ => bind_mix fun _ => bind_mix fun amtP =>
    bind_map (tokenTransfer_mix h2 h4) fun w1 => bind_map (tokenTransfer_mix h3 h5) fun w2 =>
    tokenMintTo_mix h6 h7

theorem withdrawAll_mix {x y z : UInt64} {a : WithdrawAllAccounts} {w : World} (h1 : a.swap ∈ ks)
    (h2 : a.source ∈ ks) (h3 : a.fee ∈ ks) (h4 : a.tokenA ∈ ks) (h5 : a.tokenB ∈ ks)
    (h6 : a.poolMint ∈ ks) (h7 : a.destA ∈ ks) (h8 : a.destB ∈ ks) :
    processWithdrawAll env signers x y z a (mix ks u w) =
      (processWithdrawAll env signers x y z a w).map (mix ks u) := by
  unfold processWithdrawAll
  rw [unpackSwap_mix h1]
  refine bind_mix fun ts => ?_
  rw [checkAccounts_mix h1, unpackToken_mix h4, unpackToken_mix h5, unpackMint_mix h6]
  refine bind_mix fun _ => bind_mix fun tA => bind_mix fun tB => bind_mix fun pm =>
    ite_mix fun fee => bind_mix fun pt => bind_mix fun r => bind_mix fun amtA => bind_mix fun _ =>
    bind_mix fun _ => bind_mix fun amtB => bind_mix fun _ => bind_mix fun _ => bind_mix fun feeAmt =>
    bind_map (tokenTransferIfPos_mix h2 h3) fun w1 => bind_mix fun burnAmt =>
    bind_map (tokenBurn_mix h2 h6) fun w2 => bind_map (tokenTransferIfPos_mix h4 h7) fun w3 =>
    tokenTransferIfPos_mix h5 h8

theorem depositSingle_mix {x y : UInt64} {a : DepositSingleAccounts} {w : World} (h1 : a.swap ∈ ks)
    (h2 : a.source ∈ ks) (h4 : a.tokenA ∈ ks) (h5 : a.tokenB ∈ ks) (h6 : a.poolMint ∈ ks)
    (h7 : a.destination ∈ ks) :
    processDepositSingle env signers x y a (mix ks u w) =
      (processDepositSingle env signers x y a w).map (mix ks u) := by
  unfold processDepositSingle
  rw [unpackSwap_mix h1]
  refine bind_mix fun ts => ?_
  rw [unpackToken_mix h2, unpackToken_mix h4, unpackToken_mix h5, unpackMint_mix h6]
  refine bind_mix fun src => bind_mix fun tA => bind_mix fun tB => bind_mix fun dir => ?_
  rw [checkAccounts_mix h1]
  refine bind_mix fun _ => bind_mix fun pm => ite_mix fun pt => bind_mix fun amtP =>
    bind_mix fun _ => bind_mix fun _ => ?_
  cases dir
  · exact bind_map (tokenTransfer_mix h2 h4) fun w1 => tokenMintTo_mix h6 h7
  · exact bind_map (tokenTransfer_mix h2 h5) fun w1 => tokenMintTo_mix h6 h7

theorem withdrawSingle_mix {x y : UInt64} {a : WithdrawSingleAccounts} {w : World}
    (h1 : a.swap ∈ ks) (h2 : a.source ∈ ks) (h3 : a.fee ∈ ks) (h4 : a.tokenA ∈ ks)
    (h5 : a.tokenB ∈ ks) (h6 : a.poolMint ∈ ks) (h7 : a.destination ∈ ks) :
    processWithdrawSingle env signers x y a (mix ks u w) =
      (processWithdrawSingle env signers x y a w).map (mix ks u) := by
  unfold processWithdrawSingle
  rw [unpackSwap_mix h1]
  refine bind_mix fun ts => ?_
  rw [unpackToken_mix h7, unpackToken_mix h4, unpackToken_mix h5, unpackMint_mix h6]
  refine bind_mix fun dst => bind_mix fun tA => bind_mix fun tB => bind_mix fun dir => ?_
  rw [checkAccounts_mix h1]
  refine bind_mix fun _ => bind_mix fun pm => bind_mix fun bt => ite_mix fun fee =>
    bind_mix fun pt => bind_mix fun p64 => bind_mix fun _ => bind_mix fun _ => bind_mix fun feeAmt =>
    bind_map (tokenTransferIfPos_mix h2 h3) fun w1 => bind_mix fun burnAmt =>
    bind_map (tokenBurn_mix h2 h6) fun w2 => ?_
  cases dir
  · exact tokenTransfer_mix h4 h7
  · exact tokenTransfer_mix h5 h7

/-- Keys of the accounts passed. -/
def keysOf (i : Instr) : List Pubkey := (roles i).map Role.key

theorem mem_keysOf {i : Instr} {k : Pubkey} : k ∈ keysOf i ↔ Uses i k := by
  simp [keysOf, Uses]

theorem exec_mix (i : Instr) (w : World) :
    exec env signers i (mix (keysOf i) u w) =
      (exec env signers i w).map (mix (keysOf i) u) := by
  cases i <;> unfold exec <;> refine bind_mix fun _ => ?_
  · exact init_mix (by simp [keysOf, roles, Role.key]) (by simp [keysOf, roles, Role.key])
      (by simp [keysOf, roles, Role.key]) (by simp [keysOf, roles, Role.key])
      (by simp [keysOf, roles, Role.key]) (by simp [keysOf, roles, Role.key])
  · exact init_mix (by simp [keysOf, roles, Role.key]) (by simp [keysOf, roles, Role.key])
      (by simp [keysOf, roles, Role.key]) (by simp [keysOf, roles, Role.key])
      (by simp [keysOf, roles, Role.key]) (by simp [keysOf, roles, Role.key])
  · exact swap_mix (by simp [keysOf, roles, Role.key]) (by simp [keysOf, roles, Role.key])
      (by simp [keysOf, roles, Role.key]) (by simp [keysOf, roles, Role.key])
      (by simp [keysOf, roles, Role.key]) (by simp [keysOf, roles, Role.key])
      (by simp [keysOf, roles, Role.key])
  · exact depositAll_mix (by simp [keysOf, roles, Role.key]) (by simp [keysOf, roles, Role.key])
      (by simp [keysOf, roles, Role.key]) (by simp [keysOf, roles, Role.key])
      (by simp [keysOf, roles, Role.key]) (by simp [keysOf, roles, Role.key])
      (by simp [keysOf, roles, Role.key])
  · exact withdrawAll_mix (by simp [keysOf, roles, Role.key]) (by simp [keysOf, roles, Role.key])
      (by simp [keysOf, roles, Role.key]) (by simp [keysOf, roles, Role.key])
      (by simp [keysOf, roles, Role.key]) (by simp [keysOf, roles, Role.key])
      (by simp [keysOf, roles, Role.key]) (by simp [keysOf, roles, Role.key])
  · exact depositSingle_mix (by simp [keysOf, roles, Role.key]) (by simp [keysOf, roles, Role.key])
      (by simp [keysOf, roles, Role.key]) (by simp [keysOf, roles, Role.key])
      (by simp [keysOf, roles, Role.key]) (by simp [keysOf, roles, Role.key])
  · exact withdrawSingle_mix (by simp [keysOf, roles, Role.key]) (by simp [keysOf, roles, Role.key])
      (by simp [keysOf, roles, Role.key]) (by simp [keysOf, roles, Role.key])
      (by simp [keysOf, roles, Role.key]) (by simp [keysOf, roles, Role.key])
      (by simp [keysOf, roles, Role.key])

theorem mix_alike {i : Instr} {w u : World} (h : Alike i w u) : mix (keysOf i) u w = u := by
  funext k
  by_cases hk : k ∈ keysOf i
  · rw [mix_at hk]
    exact h k (mem_keysOf.1 hk)
  · exact mix_off hk

/-- On a ledger alike, the result is the same with the rest patched in. -/
theorem exec_alike {i : Instr} {w u : World} (h : Alike i w u) :
    exec env signers i u = (exec env signers i w).map (mix (keysOf i) u) := by
  have := exec_mix (env := env) (signers := signers) (u := u) i w
  rwa [mix_alike h] at this

theorem mem_writable {rs : List Role} {k : Pubkey} :
    k ∈ writable rs ↔ ∃ r ∈ rs, r.key = k ∧ r.MayWrite := by
  induction rs with
  | nil => simp [writable]
  | cons r rs ih =>
    cases r <;> simp [writable, Role.key, Role.MayWrite, ih, eq_comm (b := k)]

theorem exec_unwritten {i : Instr} {w w' : World} (h : exec env signers i w = .ok w')
    {k : Pubkey} (hk : ¬ Writes i k) : w' k = w k :=
  exec_writes h fun hm => hk (mem_writable.1 hm)

end Verif
