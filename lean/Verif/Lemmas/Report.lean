import Verif.Lemmas.Runs
import Verif.Lemmas.Wire
import Verif.Spec.Report

/-
Which errors an instruction can end with.
-/

namespace Verif
open Spec

/-- Every failure of `x` satisfies `P`. -/
def Fails (P : Err → Prop) {α : Type} (x : Except Err α) : Prop := ∀ e, x = .error e → P e

section
variable {P : Err → Prop}

theorem Fails.ok {α : Type} {a : α} : Fails P (.ok a : Except Err α) := nofun

theorem Fails.error {α : Type} {e : Err} (h : P e) : Fails P (.error e : Except Err α) := by
  intro e' he; cases he; exact h

theorem Fails.bind {α β : Type} {x : Except Err α} {f : α → Except Err β} (hx : Fails P x)
    (hf : ∀ a, x = .ok a → Fails P (f a)) : Fails P (x >>= f) := by
  cases x with
  | ok a => exact hf a rfl
  | error e => intro e' h; cases h; exact hx e rfl

theorem Fails.require {c : Prop} [Decidable c] {e : Err} (h : c ∨ P e) :
    Fails P (require c e) := by
  unfold Verif.require
  split
  · exact .ok
  · rename_i hc
    exact .error (h.resolve_left hc)

theorem Fails.req {α : Type} {c : Prop} [Decidable c] {e : Err} {f : Unit → Except Err α}
    (h : P e) (hf : c → Fails P (f ())) : Fails P (Verif.require c e >>= f) :=
  .bind (.require (Or.inr h)) fun _ h => hf (req_ok.1 h)

theorem Fails.optErr {α : Type} {o : Option α} {e : Err} (h : o ≠ none ∨ P e) :
    Fails P (optErr o e) := by
  cases o with
  | some a => exact .ok
  | none => exact .error (h.resolve_left fun h => h rfl)

/-- A choice followed by a common continuation. -/
theorem Fails.branch {α β : Type} {c : Prop} [Decidable c] {x y : Except Err α}
    {f : α → Except Err β} (hx : Fails P x) (hy : Fails P y) (hf : ∀ a, Fails P (f a)) :
    Fails P (if c then x >>= f else y >>= f) := by
  split
  · exact .bind hx fun a _ => hf a
  · exact .bind hy fun a _ => hf a

theorem Fails.mono {Q : Err → Prop} {α : Type} {x : Except Err α} (h : Fails P x)
    (hPQ : ∀ e, P e → Q e) : Fails Q x := fun e he => hPQ e (h e he)

end

/-- Errors of the token program's transfers, mints and burns, `FixedSupply` apart. -/
def tokenErrs : List Err :=
  [.token .InvalidAccount, .token .AccountFrozen, .token .InsufficientFunds, .token .MintMismatch,
   .token .OwnerMismatch, .token .MissingSignature, .token .Overflow]

namespace Token
section
variable {P : Err → Prop} (h : ∀ e ∈ tokenErrs, P e)
include h

theorem fails_getToken {tp k : Pubkey} {w : World} : Fails P (getToken tp w k) := by
  unfold getToken
  split
  · split
    · exact .ok
    · exact .error (h _ (by decide))
  · exact .error (h _ (by decide))

theorem fails_getMint {tp k : Pubkey} {w : World} : Fails P (getMint tp w k) := by
  unfold getMint
  split
  · split
    · exact .ok
    · exact .error (h _ (by decide))
  · exact .error (h _ (by decide))

theorem fails_validateOwner {signed : Pubkey → Bool} {x y : Pubkey} :
    Fails P (validateOwner signed x y) := by
  unfold validateOwner
  exact .req (h _ (by decide)) fun _ => .require (Or.inr (h _ (by decide)))

theorem fails_authorize {signed : Pubkey → Bool} {t : TokenAccount} {a : Pubkey} {x : UInt64} :
    Fails P (authorize signed t a x) := by
  unfold authorize
  split
  · exact .req (h _ (by decide)) fun _ => .bind (.optErr (Or.inr (h _ (by decide)))) fun _ _ => .ok
  · exact .bind (fails_validateOwner h) fun _ _ => .ok

theorem fails_transfer {tp : Pubkey} {signed : Pubkey → Bool} {src dst a : Pubkey} {x : UInt64}
    {w : World} : Fails P (transfer tp signed src dst a x w) := by
  unfold transfer
  refine .bind (fails_getToken h) fun s _ => .bind (fails_getToken h) fun d _ =>
    .req (h _ (by decide)) fun _ => .req (h _ (by decide)) fun _ => .req (h _ (by decide)) fun _ =>
    .bind (fails_authorize h) fun _ _ => ?_
  split
  · exact .ok
  · exact .bind (.optErr (Or.inr (h _ (by decide)))) fun _ _ =>
      .bind (.optErr (Or.inr (h _ (by decide)))) fun _ _ => .ok

theorem fails_mintTo {tp : Pubkey} {signed : Pubkey → Bool} {m dst a : Pubkey} {x : UInt64}
    {w : World} (hf : (∃ k, (w m).data = .mint k ∧ k.mint_authority ≠ none) ∨
      P (.token .FixedSupply)) : Fails P (mintTo tp signed m dst a x w) := by
  unfold mintTo
  refine .bind (fails_getToken h) fun d _ => .req (h _ (by decide)) fun _ =>
    .req (h _ (by decide)) fun _ => .bind (fails_getMint h) fun k hk =>
    .bind (.optErr ?_) fun _ _ => .bind (fails_validateOwner h) fun _ _ =>
    .bind (.optErr (Or.inr (h _ (by decide)))) fun _ _ =>
    .bind (.optErr (Or.inr (h _ (by decide)))) fun _ _ => .ok
  rcases hf with ⟨k', h1, h2⟩ | hf
  · have := (getMint_ok.1 hk).2
    rw [h1] at this
    cases this
    exact Or.inl h2
  · exact Or.inr hf

theorem fails_burn {tp : Pubkey} {signed : Pubkey → Bool} {src m a : Pubkey} {x : UInt64}
    {w : World} : Fails P (burn tp signed src m a x w) := by
  unfold burn
  exact .bind (fails_getToken h) fun d _ => .bind (fails_getMint h) fun _ _ =>
    .req (h _ (by decide)) fun _ => .req (h _ (by decide)) fun _ => .req (h _ (by decide)) fun _ =>
    .bind (fails_authorize h) fun _ _ => .bind (.optErr (Or.inr (h _ (by decide)))) fun _ _ =>
    .bind (.optErr (Or.inr (h _ (by decide)))) fun _ _ => .ok

end
end Token

namespace Processor

/-- Every error of a deposit, withdrawal or swap but three. -/
def tradeErrs : List Err :=
  tokenErrs ++
  [.IncorrectProgramId, .InvalidAccountData, .UninitializedAccount, .MissingRequiredSignature,
   .InvalidSeeds, .Panic, .swap .ExpectedAccount, .swap .InvalidInput, .swap .IncorrectSwapAccount,
   .swap .IncorrectPoolMint, .swap .CalculationFailure, .swap .ExceededSlippage,
   .swap .IncorrectFeeAccount, .swap .ZeroTradingTokens, .swap .FeeCalculationFailure,
   .swap .ConversionFailure, .swap .IncorrectTokenProgramId, .swap .UnsupportedCurveOperation]

theorem trade_token {P : Err → Prop} (h : ∀ e ∈ tradeErrs, P e) : ∀ e ∈ tokenErrs, P e :=
  fun e he => h e (List.mem_append_left _ he)

/-- The three remaining errors, with what rules them out: a wrong authority, a pool mint that is none,
a pool mint without authority. -/
structure Rest (env : Env) (w : World) (k authority : Pubkey) (P : Err → Prop) : Prop where
  auth : ∀ ts, unpackSwap w k = .ok ts →
    env.createPda k ts.bump_seed = some authority ∨ P (.swap .InvalidProgramAddress)
  mint : ∀ ts, unpackSwap w k = .ok ts →
    (∃ m, (w ts.pool_mint).data = .mint m ∧ m.mint_authority ≠ none) ∨
      (P (.swap .ExpectedMint) ∧ P (.token .FixedSupply))

section
variable {P : Err → Prop} (h : ∀ e ∈ tradeErrs, P e)
include h

theorem fails_okOr {α : Type} {r : Res α} {e : SwapError} (he : P (.swap e)) :
    Fails P (okOr r e) := by
  cases r with
  | ok a => exact .ok
  | none => exact .error he
  | panic => exact .error (h _ (by decide))

theorem fails_toU64 {v : Nat} : Fails P (toU64 v) := by
  unfold toU64
  split
  · exact .ok
  · exact .error (h _ (by decide))

theorem fails_unpackTokenAccount {w : World} {k tp : Pubkey} :
    Fails P (unpackTokenAccount w k tp) := by
  unfold unpackTokenAccount
  split
  · exact .error (h _ (by decide))
  · split
    · exact .ok
    · exact .error (h _ (by decide))

theorem fails_unpackMint {w : World} {k tp : Pubkey}
    (hm : (∃ m, (w k).data = .mint m) ∨ P (.swap .ExpectedMint)) : Fails P (unpackMint w k tp) := by
  unfold unpackMint
  split
  · exact .error (h _ (by decide))
  · split
    · exact .ok
    · rename_i hd
      refine .error (hm.resolve_left ?_)
      rintro ⟨m, hm⟩
      exact hd _ hm

theorem fails_cpiSigned {env : Env} {signers : List Pubkey} {k : Pubkey} {b : UInt8} :
    Fails P (cpiSigned env signers k b) := by
  unfold cpiSigned
  split
  · exact .ok
  · exact .error (h _ (by decide))

theorem fails_tokenTransfer {env : Env} {signers : List Pubkey} {swap tp src dst a : Pubkey}
    {bump : UInt8} {x : UInt64} {w : World} :
    Fails P (tokenTransfer env signers swap tp src dst a bump x w) := by
  unfold tokenTransfer
  exact .req (h _ (by decide)) fun _ => .bind (fails_cpiSigned h) fun _ _ =>
    Token.fails_transfer (trade_token h)

theorem fails_tokenMintTo {env : Env} {signers : List Pubkey} {swap tp m dst a : Pubkey}
    {bump : UInt8} {x : UInt64} {w : World}
    (hf : (∃ k, (w m).data = .mint k ∧ k.mint_authority ≠ none) ∨ P (.token .FixedSupply)) :
    Fails P (tokenMintTo env signers swap tp m dst a bump x w) := by
  unfold tokenMintTo
  exact .req (h _ (by decide)) fun _ => .bind (fails_cpiSigned h) fun _ _ =>
    Token.fails_mintTo (trade_token h) hf

theorem fails_tokenBurn {env : Env} {signers : List Pubkey} {swap tp src m a : Pubkey}
    {bump : UInt8} {x : UInt64} {w : World} :
    Fails P (tokenBurn env signers swap tp src m a bump x w) := by
  unfold tokenBurn
  exact .req (h _ (by decide)) fun _ => .bind (fails_cpiSigned h) fun _ _ =>
    Token.fails_burn (trade_token h)

theorem fails_ifPos {env : Env} {signers : List Pubkey} {swap tp src dst a : Pubkey}
    {bump : UInt8} {x : UInt64} {w : World} :
    Fails P (tokenTransferIfPos env signers swap tp src dst a bump x w) := by
  unfold tokenTransferIfPos
  split
  · exact fails_tokenTransfer h
  · exact .ok

theorem fails_checkAccounts {env : Env} {w : World} {ts : SwapV1} {swap authority tokenA tokenB
    poolMint tokenProgram : Pubkey} {userA userB fee : Option Pubkey}
    (ha : env.createPda swap ts.bump_seed = some authority ∨ P (.swap .InvalidProgramAddress)) :
    Fails P (checkAccounts env w ts swap authority tokenA tokenB poolMint tokenProgram userA userB
      fee) := by
  unfold checkAccounts
  refine .req (h _ (by decide)) fun _ => .bind ?_ fun aid hi => .bind (.require ?_) fun _ _ =>
    .req (h _ (by decide)) fun _ => .req (h _ (by decide)) fun _ => .req (h _ (by decide)) fun _ =>
    .req (h _ (by decide)) fun _ => .req (h _ (by decide)) fun _ => .req (h _ (by decide)) fun _ =>
    .require (Or.inr (h _ (by decide)))
  · refine .optErr (ha.imp_left fun e => ?_)
    rw [e]; nofun
  · refine ha.imp_left fun e => ?_
    have := optErr_ok.1 hi
    rw [e] at this
    exact Option.some.inj this

omit h in
theorem fails_unpackV1 {l : List UInt8} (hi : P .InvalidAccountData)
    (hu : P .UninitializedAccount) : Fails P (SwapVersion.unpack l) := by
  unfold SwapVersion.unpack
  split
  · exact .error hi
  · split
    · unfold SwapV1.unpack
      split
      · exact .error hi
      · refine .bind ?_ fun s _ => ?_
        · unfold SwapV1.unpackFromSlice
          have hc : ∀ m, Fails P (State.unpackCurve m) := by
            intro m
            unfold State.unpackCurve
            simp only []
            repeat' split
            all_goals first | exact .ok | exact .error hi
          simp only []
          split
          · exact .bind .ok fun _ _ => .bind (hc _) fun _ _ => .ok
          · exact Fails.branch .ok (.error hi) fun _ => .bind (hc _) fun _ _ => .ok
        · split
          · exact .ok
          · exact .error hu
    · exact .error hu

theorem fails_unpackSwap {w : World} {k : Pubkey} : Fails P (unpackSwap w k) := by
  unfold unpackSwap
  split
  · exact fails_unpackV1 (h _ (by decide)) (h _ (by decide))
  · exact .error (h _ (by decide))

theorem fails_single {x y z : Pubkey} : Fails P (singleDirection x y z) := by
  unfold singleDirection
  split
  · exact .ok
  · split
    · exact .ok
    · exact .error (h _ (by decide))

omit h in
/-- Transfers leave a mint its authority. -/
theorem mint_kept {w w' : World} (hF : Frame w w') {k : Pubkey} {A : Prop}
    (hm : (∃ m, (w k).data = .mint m ∧ m.mint_authority ≠ none) ∨ A) :
    (∃ m, (w' k).data = .mint m ∧ m.mint_authority ≠ none) ∨ A := by
  refine hm.imp_left fun ⟨m, h1, h2⟩ => ?_
  have := (hF k).2
  rw [h1] at this
  cases hd : (w' k).data with
  | mint m' =>
    rw [hd] at this
    exact ⟨m', rfl, by rw [this.1]; exact h2⟩
  | raw _ => rw [hd] at this; exact this.elim
  | token _ => rw [hd] at this; exact this.elim

theorem fails_swap {env : Env} {signers : List Pubkey} {x y : UInt64} {a : SwapAccounts} {w : World}
    (hr : Rest env w a.swap a.authority P) : Fails P (processSwap env signers x y a none w) := by
  unfold processSwap
  refine .req (h _ (by decide)) fun _ => .bind (fails_unpackSwap h) fun ts hts => ?_
  have ha := hr.auth ts hts
  have hm := hr.mint ts hts
  refine .bind ?_ fun aid hi => .bind (.require ?_) fun _ _ =>
    .req (h _ (by decide)) fun _ => .req (h _ (by decide)) fun _ => .req (h _ (by decide)) fun _ =>
    .req (h _ (by decide)) fun _ => .req (h _ (by decide)) fun _ => .req (h _ (by decide)) fun e1 =>
    .req (h _ (by decide)) fun _ => .req (h _ (by decide)) fun _ =>
    .bind (fails_unpackTokenAccount h) fun _ _ => .bind (fails_unpackTokenAccount h) fun _ _ => ?_
  · refine .optErr (ha.imp_left fun e => ?_)
    rw [e]; nofun
  · refine ha.imp_left fun e => ?_
    have := optErr_ok.1 hi
    rw [e] at this
    exact Option.some.inj this
  · rw [← e1] at hm
    refine .bind (fails_unpackMint h (hm.imp (fun ⟨m, q, _⟩ => ⟨m, q⟩) And.left)) fun _ _ =>
      .bind (fails_okOr h (h _ (by decide))) fun _ _ => .req (h _ (by decide)) fun _ =>
      .bind (fails_toU64 h) fun _ _ => .bind (fails_tokenTransfer h) fun w1 hw1 =>
      .bind (fails_okOr h (h _ (by decide))) fun _ _ => .bind ?_ fun _ _ =>
      .bind (fails_toU64 h) fun _ _ => fails_tokenTransfer h
    unfold ownerFeeStep
    split
    · obtain ⟨_, _, _, _, _, hM⟩ := tokenTransfer_ok hw1
      refine .bind ?_ fun p hp => .bind (fails_toU64 h) fun _ _ => ?_
      · exact .ok
      · cases hp
        exact fails_tokenMintTo h (mint_kept hM.frame (hm.imp_right And.right))
    · exact .ok

theorem fails_depositAll {env : Env} {signers : List Pubkey} {x y z : UInt64}
    {a : DepositAllAccounts} {w : World} (hr : Rest env w a.swap a.authority P) :
    Fails P (processDepositAll env signers x y z a w) := by
  unfold processDepositAll
  refine .bind (fails_unpackSwap h) fun ts hts => .req (h _ (by decide)) fun _ => ?_
  have ha := hr.auth ts hts
  have hm := hr.mint ts hts
  refine .bind (fails_checkAccounts h ha) fun _ hc => ?_
  have hc := checkAccounts_ok hc
  rw [← hc.isMint] at hm
  refine .bind (fails_unpackTokenAccount h) fun _ _ => .bind (fails_unpackTokenAccount h) fun _ _ =>
    .bind (fails_unpackMint h (hm.imp (fun ⟨m, q, _⟩ => ⟨m, q⟩) And.left)) fun _ _ => ?_
  refine .bind (fails_okOr h (h _ (by decide))) fun _ _ => .bind (fails_toU64 h) fun _ _ =>
    .req (h _ (by decide)) fun _ => .req (h _ (by decide)) fun _ => .bind (fails_toU64 h) fun _ _ =>
    .req (h _ (by decide)) fun _ => .req (h _ (by decide)) fun _ => .bind (fails_toU64 h) fun _ _ =>
    .bind (fails_tokenTransfer h) fun w1 hw1 => .bind (fails_tokenTransfer h) fun w2 hw2 => ?_
  obtain ⟨_, _, _, _, _, hM⟩ := tokenTransfer_ok hw1
  obtain ⟨_, _, _, _, _, hN⟩ := tokenTransfer_ok hw2
  exact fails_tokenMintTo h (mint_kept hN.frame (mint_kept hM.frame (hm.imp_right And.right)))

theorem fails_withdrawAll {env : Env} {signers : List Pubkey} {x y z : UInt64}
    {a : WithdrawAllAccounts} {w : World} (hr : Rest env w a.swap a.authority P) :
    Fails P (processWithdrawAll env signers x y z a w) := by
  unfold processWithdrawAll
  refine .bind (fails_unpackSwap h) fun ts hts => ?_
  have ha := hr.auth ts hts
  have hm := hr.mint ts hts
  refine .bind (fails_checkAccounts h ha) fun _ hc => ?_
  have hc := checkAccounts_ok hc
  rw [← hc.isMint] at hm
  refine .bind (fails_unpackTokenAccount h) fun _ _ => .bind (fails_unpackTokenAccount h) fun _ _ =>
    .bind (fails_unpackMint h (hm.imp (fun ⟨m, q, _⟩ => ⟨m, q⟩) And.left)) fun _ _ => ?_
  refine Fails.branch .ok (fails_okOr h (h _ (by decide))) fun fee => ?_
  refine .bind (fails_okOr h (h _ (by decide))) fun _ _ =>
    .bind (fails_okOr h (h _ (by decide))) fun _ _ => .bind (fails_toU64 h) fun _ _ =>
    .req (h _ (by decide)) fun _ => .req (h _ (by decide)) fun _ => .bind (fails_toU64 h) fun _ _ =>
    .req (h _ (by decide)) fun _ => .req (h _ (by decide)) fun _ => .bind (fails_toU64 h) fun _ _ =>
    .bind (fails_ifPos h) fun w1 hw1 => .bind (fails_toU64 h) fun _ _ =>
    .bind (fails_tokenBurn h) fun _ _ => .bind (fails_ifPos h) fun _ _ => fails_ifPos h

theorem fails_depositSingle {env : Env} {signers : List Pubkey} {x y : UInt64}
    {a : DepositSingleAccounts} {w : World} (hr : Rest env w a.swap a.authority P) :
    Fails P (processDepositSingle env signers x y a w) := by
  unfold processDepositSingle
  refine .bind (fails_unpackSwap h) fun ts hts => ?_
  have ha := hr.auth ts hts
  have hm := hr.mint ts hts
  refine .bind (fails_unpackTokenAccount h) fun _ _ => .bind (fails_unpackTokenAccount h) fun _ _ =>
    .bind (fails_unpackTokenAccount h) fun _ _ => .bind (fails_single h) fun dir _ =>
    .bind (fails_checkAccounts h ha) fun _ hc => ?_
  have hc := checkAccounts_ok hc
  rw [← hc.isMint] at hm
  refine .bind (fails_unpackMint h (hm.imp (fun ⟨m, q, _⟩ => ⟨m, q⟩) And.left)) fun _ _ => ?_
  refine Fails.branch (fails_okOr h (h _ (by decide))) .ok fun _ => ?_
  refine .bind (fails_toU64 h) fun _ _ => .req (h _ (by decide)) fun _ =>
    .req (h _ (by decide)) fun _ => .bind (fails_tokenTransfer h) fun w1 hw1 => ?_
  obtain ⟨_, _, _, _, _, hM⟩ := tokenTransfer_ok hw1
  exact fails_tokenMintTo h (mint_kept hM.frame (hm.imp_right And.right))

theorem fails_withdrawSingle {env : Env} {signers : List Pubkey} {x y : UInt64}
    {a : WithdrawSingleAccounts} {w : World} (hr : Rest env w a.swap a.authority P) :
    Fails P (processWithdrawSingle env signers x y a w) := by
  unfold processWithdrawSingle
  refine .bind (fails_unpackSwap h) fun ts hts => ?_
  have ha := hr.auth ts hts
  have hm := hr.mint ts hts
  refine .bind (fails_unpackTokenAccount h) fun _ _ => .bind (fails_unpackTokenAccount h) fun _ _ =>
    .bind (fails_unpackTokenAccount h) fun _ _ => .bind (fails_single h) fun dir _ =>
    .bind (fails_checkAccounts h ha) fun _ hc => ?_
  have hc := checkAccounts_ok hc
  rw [← hc.isMint] at hm
  refine .bind (fails_unpackMint h (hm.imp (fun ⟨m, q, _⟩ => ⟨m, q⟩) And.left)) fun _ _ =>
    .bind (fails_okOr h (h _ (by decide))) fun _ _ => ?_
  refine Fails.branch .ok (fails_okOr h (h _ (by decide))) fun _ => ?_
  exact .bind (fails_okOr h (h _ (by decide))) fun _ _ => .bind (fails_toU64 h) fun _ _ =>
    .req (h _ (by decide)) fun _ => .req (h _ (by decide)) fun _ => .bind (fails_toU64 h) fun _ _ =>
    .bind (fails_ifPos h) fun w1 hw1 => .bind (fails_toU64 h) fun _ _ =>
    .bind (fails_tokenBurn h) fun _ _ => fails_tokenTransfer h

end

/-- Every error of an initialisation. -/
def initErrs : List Err :=
  tradeErrs ++ [.token .FixedSupply, .ExternalAccountDataModified, .swap .AlreadyInUse,
    .swap .InvalidProgramAddress, .swap .ExpectedMint, .swap .InvalidOwner,
    .swap .InvalidOutputOwner, .swap .RepeatedMint, .swap .EmptySupply, .swap .InvalidDelegate,
    .swap .InvalidCloseAuthority, .swap .InvalidSupply, .swap .InvalidFreezeAuthority,
    .swap .UnsupportedCurveType, .swap .InvalidFee, .swap .InvalidCurve]

section
variable {P : Err → Prop} (h : ∀ e ∈ initErrs, P e)
include h

omit h in
theorem fails_lift {α : Type} {x : Except SwapError α} (hx : ∀ e, x = .error e → P (.swap e)) :
    Fails P (liftSwap x) := by
  cases x with
  | ok a => exact .ok
  | error e => exact .error (hx e rfl)

omit h in
theorem validateFraction_err {n d : UInt64} {e : SwapError} (he : validateFraction n d = .error e) :
    e = .InvalidFee := by
  unfold validateFraction at he
  repeat' split at he
  all_goals cases he; try rfl

omit h in
theorem fees_err {f : Fees} {e : SwapError} (he : f.validate = .error e) : e = .InvalidFee := by
  unfold Fees.validate at he
  have key : ∀ {x : Except SwapError Unit} {g : Unit → Except SwapError Unit}
      {e : SwapError}, (x >>= g) = .error e → x = .error e ∨ g () = .error e := by
    intro x g e hx
    cases x with
    | ok u => exact Or.inr hx
    | error e' => cases hx; exact Or.inl rfl
  rcases key he with h | h
  · exact validateFraction_err h
  rcases key h with h | h
  · exact validateFraction_err h
  rcases key h with h | h
  · exact validateFraction_err h
  exact validateFraction_err h

theorem fails_init {env : Env} {signers : List Pubkey} {f : Fees} {c : Curve} {a : InitAccounts}
    {w : World} : Fails P (processInitialize env signers f c a w) := by
  have ht : ∀ e ∈ tradeErrs, P e := fun e he => h e (List.mem_append_left _ he)
  unfold processInitialize
  refine .req (h _ (by decide)) fun _ => .req (h _ (by decide)) fun _ =>
    .bind (fails_unpackTokenAccount ht) fun _ _ => .bind (fails_unpackTokenAccount ht) fun _ _ =>
    .bind (fails_unpackTokenAccount ht) fun _ _ => .bind (fails_unpackTokenAccount ht) fun _ _ =>
    .bind (fails_unpackMint ht (Or.inr (h _ (by decide)))) fun _ _ =>
    .req (h _ (by decide)) fun _ => .req (h _ (by decide)) fun _ => .req (h _ (by decide)) fun _ =>
    .req (h _ (by decide)) fun _ => .req (h _ (by decide)) fun _ => .req (h _ (by decide)) fun _ =>
    .bind ?_ fun _ _ =>
    .req (h _ (by decide)) fun _ => .req (h _ (by decide)) fun _ => .req (h _ (by decide)) fun _ =>
    .req (h _ (by decide)) fun _ => .req (h _ (by decide)) fun _ => .req (h _ (by decide)) fun _ =>
    .req (h _ (by decide)) fun _ => .bind ?_ fun _ _ => .bind ?_ fun _ _ => .bind ?_ fun _ _ =>
    .bind (fails_toU64 ht) fun _ _ => .bind (fails_tokenMintTo ht (Or.inr (h _ (by decide))))
      fun _ _ => ?_
  · refine fails_lift fun e he => ?_
    cases c <;> simp only [Curve.validateSupply] at he <;> (repeat' split at he) <;>
      first | cases he; exact h _ (by decide) | cases he
  · cases env.constraints with
    | none => exact .ok
    | some sc =>
      unfold checkConstraints
      exact .bind (.optErr (Or.inr (h _ (by decide)))) fun _ _ => .req (h _ (by decide)) fun _ =>
        .bind (.require (Or.inr (h _ (by decide)))) fun _ _ =>
        .require (Or.inr (h _ (by decide)))
  · refine fails_lift fun e he => ?_
    rw [fees_err he]
    exact h _ (by decide)
  · refine fails_lift fun e he => ?_
    cases c <;> simp only [Curve.validate] at he <;> (repeat' split at he) <;>
      first | cases he; exact h _ (by decide) | cases he
  · unfold writeState
    split
    · refine .bind ?_ fun _ _ => .req (h _ (by decide)) fun _ => .ok
      unfold SwapVersion.pack
      split
      · exact .error (h _ (by decide))
      · refine .bind ?_ fun _ _ => .ok
        unfold SwapV1.pack
        split
        · exact .error (h _ (by decide))
        · exact .ok
    · exact .error (h _ (by decide))

end
end Processor

open Processor Wire

theorem fails_exec {P : Err → Prop} (h : ∀ e ∈ initErrs, P e) {env : Env} {signers : List Pubkey}
    {i : Instr} {w : World} : Fails P (exec env signers i w) := by
  have ht : ∀ e ∈ tradeErrs, P e := fun e he => h e (List.mem_append_left _ he)
  have hr : ∀ k a, Rest env w k a P := fun k a =>
    ⟨fun _ _ => Or.inr (h _ (by decide)), fun _ _ => Or.inr ⟨h _ (by decide), h _ (by decide)⟩⟩
  unfold exec
  refine .req (h _ (by decide)) fun _ => ?_
  cases i with
  | initConstantPrice a f p => exact fails_init h
  | initLinearPrice a c => exact fails_init h
  | swap a x y => exact fails_swap ht (hr _ _)
  | depositAll a x y z => exact fails_depositAll ht (hr _ _)
  | withdrawAll a x y z => exact fails_withdrawAll ht (hr _ _)
  | depositSingle a x y => exact fails_depositSingle ht (hr _ _)
  | withdrawSingle a x y => exact fails_withdrawSingle ht (hr _ _)

theorem fails_trade {P : Err → Prop} (h : ∀ e ∈ tradeErrs, P e) {env : Env} {signers : List Pubkey}
    {i : Instr} {w : World} (ht : i.Trades) (hr : Rest env w i.pool i.authority P) :
    Fails P (exec env signers i w) := by
  unfold exec
  refine .req (h _ (by decide)) fun _ => ?_
  cases i with
  | initConstantPrice a f p => exact ht.elim
  | initLinearPrice a c => exact ht.elim
  | swap a x y => exact fails_swap h hr
  | depositAll a x y z => exact fails_depositAll h hr
  | withdrawAll a x y z => exact fails_withdrawAll h hr
  | depositSingle a x y => exact fails_depositSingle h hr
  | withdrawSingle a x y => exact fails_withdrawSingle h hr

end Verif
