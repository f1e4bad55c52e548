import Verif.Lemmas.Report
import Verif.Lemmas.Guard
import Verif.Props.Curves
import Verif.Spec.Chain

/-
Why the token program refuses a transfer or a mint.
-/

namespace Verif
open Spec

/-- What is the case on the ledger when moving `x` from `src` to `dst` on authority `a` fails. -/
def WhyMove (w : World) (src dst a : Pubkey) (x : Nat) : Err → Prop
  | .token .AccountFrozen => Frozen w src ∨ Frozen w dst
  | .token .InsufficientFunds => bal w src < x ∨ ShortAllowance w src a x
  | .token .MintMismatch => mintOf w src ≠ mintOf w dst
  | .token .OwnerMismatch => ¬ Spender w src a
  | .token .FixedSupply => False
  | _ => True

/-- The same for minting. -/
def WhyMint (w : World) (mint dst a : Pubkey) : Err → Prop
  | .token .AccountFrozen => Frozen w dst
  | .token .InsufficientFunds => False
  | .token .MintMismatch => mintOf w dst ≠ some mint
  | .token .OwnerMismatch => ∀ m, mintAt w mint = some m → m.mint_authority ≠ some a
  | _ => True

theorem mintOf_token {w : World} {k : Pubkey} {t : TokenAccount} (h : (w k).data = .token t) :
    mintOf w k = some t.mint := by
  unfold mintOf
  rw [tokenAt_some.2 h]
  rfl

namespace Token

theorem why_getToken {P : Err → Prop} (h : P (.token .InvalidAccount)) {tp k : Pubkey} {w : World} :
    Fails P (getToken tp w k) := by
  unfold getToken
  split
  · split
    · exact .ok
    · exact .error h
  · exact .error h

theorem why_transfer {tp : Pubkey} {signed : Pubkey → Bool} {src dst a : Pubkey} {x : UInt64}
    {w : World} : Fails (WhyMove w src dst a x.toNat) (transfer tp signed src dst a x w) := by
  unfold transfer
  refine .bind (why_getToken trivial) fun s hs => .bind (why_getToken trivial) fun d hd => ?_
  have hs := (getToken_ok.1 hs).2
  have hd := (getToken_ok.1 hd).2
  refine .bind (.require ?_) fun _ _ => .bind (.require ?_) fun _ hx => .bind (.require ?_) fun _ _ =>
    .bind ?_ fun _ _ => ?_
  · by_cases h1 : s.frozen = false
    · by_cases h2 : d.frozen = false
      · exact Or.inl ⟨h1, h2⟩
      · exact Or.inr (Or.inr ⟨d, tokenAt_some.2 hd, by simpa using h2⟩)
    · exact Or.inr (Or.inl ⟨s, tokenAt_some.2 hs, by simpa using h1⟩)
  · by_cases h : x ≤ s.amount
    · exact Or.inl h
    · refine Or.inr (Or.inl ?_)
      rw [bal_token hs]
      have : ¬ x.toNat ≤ s.amount.toNat := fun h' => h (UInt64.le_iff_toNat_le.2 h')
      omega
  · by_cases h : s.mint = d.mint
    · exact Or.inl h
    · refine Or.inr ?_
      show mintOf w src ≠ mintOf w dst
      rw [mintOf_token hs, mintOf_token hd]
      exact fun e => h (Option.some.inj e)
  · unfold authorize
    split
    · rename_i hdel
      refine .req trivial fun _ => .bind (.optErr ?_) fun _ _ => .ok
      by_cases h : x.toNat ≤ s.delegated_amount.toNat
      · refine Or.inl ?_
        have : checkedSub64 s.delegated_amount x =
            some (UInt64.ofNat (s.delegated_amount.toNat - x.toNat)) :=
          checkedSub64_some.2 ⟨h, by
            rw [UInt64.toNat_ofNat_of_lt' (by have := s.delegated_amount.toNat_lt; simp only [UInt64.size]; omega)]; omega⟩
        rw [this]; nofun
      · exact Or.inr (Or.inr ⟨s, tokenAt_some.2 hs, hdel, by omega⟩)
    · rename_i hdel
      refine .bind ?_ fun _ _ => .ok
      unfold validateOwner
      refine .bind (.require ?_) fun _ _ => .require (Or.inr trivial)
      by_cases h : s.owner = a
      · exact Or.inl h
      · refine Or.inr ?_
        rintro ⟨t, ht, hown⟩
        rw [tokenAt_some.2 hs] at ht
        cases ht
        exact hown.elim h hdel
  · split
    · exact .ok
    · refine .bind (.optErr ?_) fun _ _ => .bind (.optErr (Or.inr trivial)) fun _ _ => .ok
      have h := UInt64.le_iff_toNat_le.1 (req_ok.1 hx)
      refine Or.inl ?_
      have : checkedSub64 s.amount x = some (UInt64.ofNat (s.amount.toNat - x.toNat)) :=
        checkedSub64_some.2 ⟨h, by
          rw [UInt64.toNat_ofNat_of_lt' (by have := s.amount.toNat_lt; simp only [UInt64.size]; omega)]; omega⟩
      rw [this]; nofun

theorem why_mintTo {tp : Pubkey} {signed : Pubkey → Bool} {m dst a : Pubkey} {x : UInt64}
    {w : World} : Fails (WhyMint w m dst a) (mintTo tp signed m dst a x w) := by
  unfold mintTo
  refine .bind (why_getToken trivial) fun d hd => ?_
  have hd := (getToken_ok.1 hd).2
  refine .bind (.require ?_) fun _ _ => .bind (.require ?_) fun _ _ => .bind ?_ fun k hk =>
    .bind (.optErr (Or.inr trivial)) fun o ho => .bind ?_ fun _ _ =>
    .bind (.optErr (Or.inr trivial)) fun _ _ => .bind (.optErr (Or.inr trivial)) fun _ _ => .ok
  · by_cases h : d.frozen = false
    · exact Or.inl h
    · exact Or.inr ⟨d, tokenAt_some.2 hd, by simpa using h⟩
  · by_cases h : d.mint = m
    · exact Or.inl h
    · refine Or.inr ?_
      show mintOf w dst ≠ some m
      rw [mintOf_token hd]
      exact fun e => h (Option.some.inj e)
  · unfold getMint
    split
    · split
      · exact .ok
      · exact .error trivial
    · exact .error trivial
  · unfold validateOwner
    refine .bind (.require ?_) fun _ _ => .require (Or.inr trivial)
    by_cases h : o = a
    · exact Or.inl h
    · refine Or.inr ?_
      intro m' hm' e
      rw [mintAt_some.2 (getMint_ok.1 hk).2] at hm'
      cases hm'
      rw [optErr_ok.1 ho] at e
      exact h (Option.some.inj e)

end Token

namespace Processor

theorem why_tokenTransfer {env : Env} {signers : List Pubkey} {swap tp src dst a : Pubkey}
    {bump : UInt8} {x : UInt64} {w : World} : Fails (WhyMove w src dst a x.toNat)
      (tokenTransfer env signers swap tp src dst a bump x w) := by
  unfold tokenTransfer
  refine .req trivial fun _ => .bind ?_ fun _ _ => Token.why_transfer
  unfold cpiSigned
  split
  · exact .ok
  · exact .error trivial

theorem why_tokenMintTo {env : Env} {signers : List Pubkey} {swap tp m dst a : Pubkey}
    {bump : UInt8} {x : UInt64} {w : World} : Fails (WhyMint w m dst a)
      (tokenMintTo env signers swap tp m dst a bump x w) := by
  unfold tokenMintTo
  refine .req trivial fun _ => .bind ?_ fun _ _ => Token.why_mintTo
  unfold cpiSigned
  split
  · exact .ok
  · exact .error trivial

end Processor

/-! Observations are the same before and after balances moved. -/

theorem Spec.Frame.token_back {w w' : World} (h : Frame w w') {k : Pubkey} {t' : TokenAccount}
    (ht : tokenAt w' k = some t') : ∃ t, tokenAt w k = some t ∧ t'.mint = t.mint ∧
      t'.owner = t.owner ∧ t'.frozen = t.frozen ∧ (t'.delegate = t.delegate ∨ t'.delegate = none) := by
  have hd := (h k).2
  rw [tokenAt_some.1 ht] at hd
  cases e : (w k).data with
  | token t =>
    rw [e] at hd
    exact ⟨t, tokenAt_some.2 e, hd.1, hd.2.1, hd.2.2.1, hd.2.2.2.2⟩
  | raw _ => rw [e] at hd; exact hd.elim
  | mint _ => rw [e] at hd; exact hd.elim

theorem Spec.Frame.token_on {w w' : World} (h : Frame w w') {k : Pubkey} {t : TokenAccount}
    (ht : tokenAt w k = some t) : ∃ t', tokenAt w' k = some t' ∧ t'.mint = t.mint ∧
      t'.owner = t.owner ∧ t'.frozen = t.frozen ∧ (t'.delegate = t.delegate ∨ t'.delegate = none) := by
  have hd := (h k).2
  rw [tokenAt_some.1 ht] at hd
  cases e : (w' k).data with
  | token t' =>
    rw [e] at hd
    exact ⟨t', tokenAt_some.2 e, hd.1, hd.2.1, hd.2.2.1, hd.2.2.2.2⟩
  | raw _ => rw [e] at hd; exact hd.elim
  | mint _ => rw [e] at hd; exact hd.elim

theorem Spec.Frame.frozen_back {w w' : World} (h : Frame w w') {k : Pubkey} (hf : Frozen w' k) :
    Frozen w k := by
  obtain ⟨t', h1, h2⟩ := hf
  obtain ⟨t, h3, _, _, h4, _⟩ := h.token_back h1
  exact ⟨t, h3, h4 ▸ h2⟩

theorem Spec.Frame.mint_on {w w' : World} (h : Frame w w') {k : Pubkey} {m : Mint}
    (hm : (w k).data = .mint m) : ∃ m', (w' k).data = .mint m' ∧
      m'.mint_authority = m.mint_authority := by
  have hd := (h k).2
  rw [hm] at hd
  cases e : (w' k).data with
  | mint m' => rw [e] at hd; exact ⟨m', rfl, hd.1⟩
  | raw _ => rw [e] at hd; exact hd.elim
  | token _ => rw [e] at hd; exact hd.elim

namespace Processor

/-- What is the case when a swap fails with one of four errors of the token program. -/
def Trouble (w : World) (a : SwapAccounts) (s : SwapV1) (x : Nat) (e : Err) : Prop :=
  (e = .token .InsufficientFunds → bal w a.source < x ∨ ShortAllowance w a.source a.userAuthority x) ∧
  (e = .token .MintMismatch → mintOf w a.source ≠ mintOf w a.swapSource ∨
    mintOf w a.destination ≠ mintOf w a.swapDestination ∨
    mintOf w s.pool_fee_account ≠ some s.pool_mint) ∧
  (e = .token .OwnerMismatch → ¬ Spender w a.source a.userAuthority) ∧
  (e = .token .AccountFrozen → ∃ k ∈ [a.source, a.swapSource, a.swapDestination, a.destination,
    s.pool_fee_account], Frozen w k)

theorem trouble_okOr {w : World} {a : SwapAccounts} {s : SwapV1} {x : Nat} {α : Type} {r : Res α}
    {e : SwapError} : Fails (Trouble w a s x) (okOr r e) := by
  cases r with
  | ok a => exact .ok
  | none => exact .error ⟨nofun, nofun, nofun, nofun⟩
  | panic => exact .error ⟨nofun, nofun, nofun, nofun⟩

theorem trouble_toU64 {w : World} {a : SwapAccounts} {s : SwapV1} {x v : Nat} :
    Fails (Trouble w a s x) (toU64 v) := by
  unfold toU64
  split
  · exact .ok
  · exact .error ⟨nofun, nofun, nofun, nofun⟩

theorem trouble_token {w : World} {a : SwapAccounts} {s : SwapV1} {x : Nat} {k tp : Pubkey} :
    Fails (Trouble w a s x) (unpackTokenAccount w k tp) := by
  unfold unpackTokenAccount
  split
  · exact .error ⟨nofun, nofun, nofun, nofun⟩
  · split
    · exact .ok
    · exact .error ⟨nofun, nofun, nofun, nofun⟩

theorem trouble_mint {w : World} {a : SwapAccounts} {s : SwapV1} {x : Nat} {k tp : Pubkey} :
    Fails (Trouble w a s x) (unpackMint w k tp) := by
  unfold unpackMint
  split
  · exact .error ⟨nofun, nofun, nofun, nofun⟩
  · split
    · exact .ok
    · exact .error ⟨nofun, nofun, nofun, nofun⟩

theorem swap_trouble {env : Env} {signers : List Pubkey} {a : SwapAccounts} {x y : UInt64} {w : World}
    {s : SwapV1} (hp : PoolAt env w a.swap s) (hc : Custody env w a.swap s a.authority)
    (hu : a.userAuthority ≠ a.authority) :
    Fails (Trouble w a s x.toNat) (processSwap env signers x y a none w) := by
  unfold processSwap
  rw [unpackSwap_of hp]
  refine .req ⟨nofun, nofun, nofun, nofun⟩ fun _ => .bind .ok fun ts hts => ?_
  cases hts
  refine .bind (.optErr (Or.inr ⟨nofun, nofun, nofun, nofun⟩)) fun aid _ =>
    .req ⟨nofun, nofun, nofun, nofun⟩ fun _ => .req ⟨nofun, nofun, nofun, nofun⟩ fun _ =>
    .req ⟨nofun, nofun, nofun, nofun⟩ fun hvd => .req ⟨nofun, nofun, nofun, nofun⟩ fun _ =>
    .req ⟨nofun, nofun, nofun, nofun⟩ fun _ => .req ⟨nofun, nofun, nofun, nofun⟩ fun _ =>
    .req ⟨nofun, nofun, nofun, nofun⟩ fun e1 => .req ⟨nofun, nofun, nofun, nofun⟩ fun e2 =>
    .req ⟨nofun, nofun, nofun, nofun⟩ fun _ => .bind trouble_token fun src _ =>
    .bind trouble_token fun dst hdst => .bind trouble_mint fun pm _ =>
    .bind trouble_okOr fun r hres => .req ⟨nofun, nofun, nofun, nofun⟩ fun _ =>
    .bind trouble_toU64 fun amtIn hin => .bind ?_ fun w1 hw1 => .bind trouble_okOr fun pt _ =>
    .bind ?_ fun w2 hw2 => .bind trouble_toU64 fun amtOut hout => ?_
  all_goals
    have hb := Props.C07_swap_bounds _ _ _ _ _ _ _ _ (okOr_ok.1 hres)
  · have hle : amtIn.toNat ≤ x.toNat := by
      rw [(toU64_ok.1 hin)]; exact hb.1
    refine Fails.mono why_tokenTransfer fun e hw => ⟨?_, ?_, ?_, ?_⟩ <;> rintro rfl
    · rcases hw with hw | ⟨t, h1, h2, h3⟩
      · exact Or.inl (by omega)
      · exact Or.inr ⟨t, h1, h2, by omega⟩
    · exact Or.inl hw
    · exact hw
    · rcases hw with hw | hw
      · exact ⟨_, by simp, hw⟩
      · exact ⟨a.swapSource, by simp, hw⟩
  all_goals
    obtain ⟨_, _, _, _, _, hM⟩ := tokenTransfer_ok hw1
  · unfold ownerFeeStep
    split
    · refine .bind .ok fun q hq => .bind trouble_toU64 fun _ _ => ?_
      cases hq
      refine Fails.mono why_tokenMintTo fun e hw => ⟨?_, ?_, ?_, ?_⟩ <;> rintro rfl
      · exact hw.elim
      · refine Or.inr (Or.inr ?_)
        have hw : mintOf w1 a.poolFee ≠ some a.poolMint := hw
        rw [hM.frame.mintOf, e1, e2] at hw
        exact hw
      · obtain ⟨_, m, h1, h2, _⟩ := hc.minter
        obtain ⟨m', h3, h4⟩ := hM.frame.mint_on h1
        rw [← e1] at h3
        exact absurd (h4.trans h2) (hw m' (mintAt_some.2 h3))
      · exact ⟨s.pool_fee_account, by simp, hM.frame.frozen_back (e2 ▸ hw)⟩
    · exact .ok
  · have hle : amtOut.toNat ≤ dst.amount.toNat := by
      rw [toU64_ok.1 hout]; exact hb.2.1
    have hd := (unpackTokenAccount_ok.1 hdst).2
    obtain ⟨hF2, hmore⟩ : Frame w1 w2 ∧ bal w1 a.swapDestination ≤ bal w2 a.swapDestination := by
      rcases ownerFeeStep_none hw2 with ⟨_, rfl⟩ | ⟨amt, _, _, h⟩
      · exact ⟨Frame.refl _, le_rfl⟩
      · obtain ⟨_, _, _, _, _, hN⟩ := tokenMintTo_ok h
        refine ⟨hN.frame, ?_⟩
        rw [hN.bal]
        unfold when
        split <;> omega
    have hF : Frame w w2 := hM.frame.trans hF2
    have hown : ∃ t, tokenAt w a.swapDestination = some t ∧ t.owner = a.authority ∧
        t.delegate = none := by
      rcases hvd with e | e <;> rw [e]
      · obtain ⟨_, t, h1, _, h2, h3, _⟩ := hc.vaultA
        exact ⟨t, tokenAt_some.2 h1, h2, h3⟩
      · obtain ⟨_, t, h1, _, h2, h3, _⟩ := hc.vaultB
        exact ⟨t, tokenAt_some.2 h1, h2, h3⟩
    obtain ⟨t, ht, ho, hdel⟩ := hown
    obtain ⟨t2, ht2, _, ho2, _, hdel2⟩ := hF.token_on ht
    have hdel2 : t2.delegate = none := hdel2.elim (fun h => h.trans hdel) id
    have hne : a.swapDestination ≠ a.source := by
      intro e
      obtain ⟨t', _, h1, _, h2⟩ := hM.srcTok
      rw [← e, tokenAt_some.1 ht] at h1
      cases h1
      rcases h2 with h2 | h2
      · rw [hdel] at h2; cases h2
      · exact hu (h2.symm.trans ho)
    have hbal : bal w a.swapDestination ≤ bal w2 a.swapDestination := by
      refine le_trans ?_ hmore
      rw [hM.bal, when_neg hne]
      unfold when
      split <;> omega
    refine Fails.mono why_tokenTransfer fun e hw => ⟨?_, ?_, ?_, ?_⟩ <;> rintro rfl
    · exfalso
      rcases hw with hw | ⟨t', h1, h2, _⟩
      · rw [bal_token hd] at hbal
        omega
      · rw [ht2] at h1
        cases h1
        rw [hdel2] at h2
        cases h2
    · refine Or.inr (Or.inl ?_)
      have hw : mintOf w2 a.swapDestination ≠ mintOf w2 a.destination := hw
      rw [hF.mintOf, hF.mintOf] at hw
      exact hw.symm
    · exact absurd ⟨t2, ht2, Or.inl (ho2.trans ho)⟩ hw
    · rcases hw with hw | hw
      · exact ⟨a.swapDestination, by simp, hF.frozen_back hw⟩
      · exact ⟨a.destination, by simp, hF.frozen_back hw⟩

end Processor
end Verif
