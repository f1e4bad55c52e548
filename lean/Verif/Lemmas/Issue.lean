import Verif.Lemmas.Consent
import Verif.Spec.Issue

/-
Lemmas for C96: issuing tokens takes the mint authority.
-/

namespace Verif
open Spec Processor Props

variable {env : Env} {sys : Pubkey} {K S : Pubkey → Prop}

/-- Between `w` and `w'` nothing is issued in a mint whose mint authority, if any, is among `S`. -/
def NoIssue (env : Env) (S : Pubkey → Prop) (m : Pubkey) (w w' : World) : Prop :=
  ∀ f, Minter env w m f → (∀ a, f = some a → S a) →
    Minter env w' m f ∧ supply w' m ≤ supply w m

theorem NoIssue.of_same {m : Pubkey} {w w' : World}
    (h1 : ∀ x, (w x).owner = env.tokenProgramId → ¬ Zeros (w x).data → w' x = w x) :
    NoIssue env S m w w' := by
  intro f ⟨a1, q, a2, a3⟩ _
  have hm := h1 m a1 (by rw [a2]; rintro ⟨n, e⟩; cases e)
  refine ⟨⟨by rw [hm]; exact a1, q, by rw [hm]; exact a2, a3⟩, ?_⟩
  unfold Spec.supply mintAt
  rw [hm]

theorem NoIssue.refl (m : Pubkey) (w : World) : NoIssue env S m w w := .of_same fun _ _ _ => rfl

theorem NoIssue.trans {m : Pubkey} {a b c : World} (h1 : NoIssue env S m a b)
    (h2 : NoIssue env S m b c) : NoIssue env S m a c := by
  intro f hf hs
  obtain ⟨g1, g2⟩ := h1 f hf hs
  obtain ⟨k1, k2⟩ := h2 f g1 hs
  exact ⟨k1, k2.trans g2⟩

/-- Changing one account. -/
theorem NoIssue.of_set {m : Pubkey} {w : World} {k : Pubkey} {d : Data}
    (h1 : ∀ q, (w k).data = .mint q → (∃ q', d = .mint q' ∧ q'.mint_authority = q.mint_authority ∧
      q'.supply.toNat ≤ q.supply.toNat) ∨ ∃ a, q.mint_authority = some a ∧ ¬ S a) :
    NoIssue env S m w (w.setData k d) := by
  intro f ⟨a1, q, a2, a3⟩ hs
  by_cases e : m = k
  · rw [e] at a2 a1 ⊢
    rcases h1 q a2 with ⟨q', b1, b2, b3⟩ | ⟨a, b1, b2⟩
    · have hd : (w.setData k d k).data = .mint q' := by rw [setData_data, if_pos rfl]; exact b1
      refine ⟨⟨by rw [setData_owner]; exact a1, q', hd, b2.trans a3⟩, ?_⟩
      rw [supply_mint hd, supply_mint a2]
      exact_mod_cast b3
    · exact absurd (hs a (a3.symm.trans b1)) b2
  · have hd : (w.setData k d) m = w m := if_neg e
    refine ⟨⟨by rw [hd]; exact a1, q, by rw [hd]; exact a2, a3⟩, ?_⟩
    unfold Spec.supply mintAt
    rw [hd]

theorem NoIssue.of_token {m : Pubkey} {w : World} {k : Pubkey} {t : TokenAccount} {d : Data}
    (h : (w k).data = .token t) : NoIssue env S m w (w.setData k d) :=
  .of_set fun q e => by rw [h] at e; cases e

theorem NoIssue.of_raw {m : Pubkey} {w : World} {k : Pubkey} {b : List UInt8} {d : Data}
    (h : (w k).data = .raw b) : NoIssue env S m w (w.setData k d) :=
  .of_set fun q e => by rw [h] at e; cases e

namespace Token

theorem transfer_noIssue {signed : Pubkey → Bool} {src dst a m : Pubkey} {x : UInt64}
    {w w' : World} (h : transfer env.tokenProgramId signed src dst a x w = .ok w') :
    NoIssue env S m w w' := by
  unfold transfer at h
  rw [Except_bind_ok] at h
  obtain ⟨s, hs, h⟩ := h
  rw [Except_bind_ok] at h
  obtain ⟨d, hd, h⟩ := h
  rw [req_bind, req_bind, req_bind] at h
  obtain ⟨hf, _, _, h⟩ := h
  rw [Except_bind_ok] at h
  obtain ⟨s', hau, h⟩ := h
  rw [getToken_ok] at hs hd
  split at h
  · cases h; exact .refl m w
  · rename_i hne
    rw [Except_bind_ok] at h
    obtain ⟨sa, hsa, h⟩ := h
    rw [Except_bind_ok] at h
    obtain ⟨da, hda, h⟩ := h
    cases h
    refine NoIssue.trans (.of_token hs.2) (.of_token (t := d) ?_)
    rw [setData_data, if_neg (fun e => hne e.symm)]; exact hd.2

theorem mintTo_noIssue {signed : Pubkey → Bool} {mint dst a m : Pubkey} {x : UInt64}
    {w w' : World} (hs : signed a = true → ¬ S a)
    (h : mintTo env.tokenProgramId signed mint dst a x w = .ok w') :
    NoIssue env S m w w' := by
  unfold mintTo at h
  rw [Except_bind_ok] at h
  obtain ⟨d, hd, h⟩ := h
  rw [req_bind, req_bind] at h
  obtain ⟨hf, _, h⟩ := h
  rw [Except_bind_ok] at h
  obtain ⟨q, hq, h⟩ := h
  rw [Except_bind_ok] at h
  obtain ⟨au, hau, h⟩ := h
  rw [Except_bind_ok] at h
  obtain ⟨u, hv, h⟩ := h
  rw [Except_bind_ok] at h
  obtain ⟨da, _, h⟩ := h
  rw [Except_bind_ok] at h
  obtain ⟨ms, _, h⟩ := h
  cases h
  rw [getToken_ok] at hd
  rw [getMint_ok] at hq
  rw [optErr_ok] at hau
  obtain ⟨e1, e2⟩ := validateOwner_ok hv
  refine NoIssue.trans (.of_token hd.2) (.of_set fun q' e => Or.inr ?_)
  rw [setData_data] at e
  split at e
  · cases e
  · rw [hq.2] at e
    cases e
    exact ⟨au, hau, e1 ▸ hs e2⟩

theorem burn_noIssue {signed : Pubkey → Bool} {src mint a m : Pubkey} {x : UInt64}
    {w w' : World} (h : burn env.tokenProgramId signed src mint a x w = .ok w') :
    NoIssue env S m w w' := by
  have hB := burn_ok h
  unfold burn at h
  rw [Except_bind_ok] at h
  obtain ⟨s, hs, h⟩ := h
  rw [Except_bind_ok] at h
  obtain ⟨q, hq, h⟩ := h
  rw [req_bind, req_bind, req_bind] at h
  obtain ⟨hf, _, _, h⟩ := h
  rw [Except_bind_ok] at h
  obtain ⟨s', hau, h⟩ := h
  rw [Except_bind_ok] at h
  obtain ⟨sa, _, h⟩ := h
  rw [Except_bind_ok] at h
  obtain ⟨ms, hms, h⟩ := h
  cases h
  rw [getToken_ok] at hs
  rw [getMint_ok] at hq
  refine NoIssue.trans (.of_token hs.2) (.of_set fun q' e => Or.inl ⟨_, rfl, ?_⟩)
  rw [setData_data] at e
  split at e
  · cases e
  · rw [hq.2] at e
    cases e
    refine ⟨rfl, ?_⟩
    have h1 := hB.supply mint
    rw [when_pos rfl, supply_mint hq.2, supply_mint (m := { q with supply := ms })
      (by rw [setData_data, if_pos rfl])] at h1
    change ((ms.toNat : Nat) : Int) = _ at h1
    change ms.toNat ≤ _
    omega

theorem setAuthority_noIssue {signed : Pubkey → Bool} {k a m : Pubkey}
    {kind : AuthorityType} {new : Option Pubkey} {w w' : World}
    (hs : signed a = true → ¬ S a)
    (h : setAuthority env.tokenProgramId signed k kind a new w = .ok w') :
    NoIssue env S m w w' := by
  unfold setAuthority at h
  rw [req_bind] at h
  obtain ⟨_, h⟩ := h
  split at h
  · rename_i t ht
    rw [req_bind] at h
    obtain ⟨hf, h⟩ := h
    split at h
    · rw [Except_bind_ok] at h
      obtain ⟨u, _, h⟩ := h
      rw [Except_bind_ok] at h
      obtain ⟨o, _, h⟩ := h
      cases h
      exact .of_token ht
    · rw [Except_bind_ok] at h
      obtain ⟨u, _, h⟩ := h
      cases h
      exact .of_token ht
    · cases h
  · rename_i q hq
    split at h
    · rw [Except_bind_ok] at h
      obtain ⟨a', ha', h⟩ := h
      rw [Except_bind_ok] at h
      obtain ⟨u, hv, h⟩ := h
      cases h
      obtain ⟨e1, e2⟩ := validateOwner_ok hv
      rw [optErr_ok] at ha'
      refine .of_set fun q' e => Or.inr ?_
      rw [hq] at e
      cases e
      exact ⟨a', ha', e1 ▸ hs e2⟩
    · rw [Except_bind_ok] at h
      obtain ⟨a', _, h⟩ := h
      rw [Except_bind_ok] at h
      obtain ⟨u, _, h⟩ := h
      cases h
      refine .of_set fun q' e => Or.inl ⟨_, rfl, ?_⟩
      rw [hq] at e
      cases e
      exact ⟨rfl, le_refl _⟩
    · cases h
  · cases h

theorem toggleFreeze_noIssue {signed : Pubkey → Bool} {k mint a m : Pubkey}
    {fr : Bool} {w w' : World}
    (h : toggleFreeze env.tokenProgramId signed k mint a fr w = .ok w') :
    NoIssue env S m w w' := by
  unfold toggleFreeze at h
  rw [Except_bind_ok] at h
  obtain ⟨t, ht, h⟩ := h
  rw [req_bind, req_bind] at h
  obtain ⟨_, hm, h⟩ := h
  rw [Except_bind_ok] at h
  obtain ⟨q, hq, h⟩ := h
  rw [Except_bind_ok] at h
  obtain ⟨a1, ha1, h⟩ := h
  rw [Except_bind_ok] at h
  obtain ⟨u, hv, h⟩ := h
  cases h
  rw [getToken_ok] at ht
  exact .of_token ht.2

theorem TokenInstr.noIssue {signers : List Pubkey} {i : TokenInstr} {w w' : World} {m : Pubkey}
    (hn : ∀ x, S x → ¬ Consents env w signers x)
    (h : i.exec env.tokenProgramId signers w = .ok w') : NoIssue env S m w w' := by
  cases i with
  | initializeMint k a f =>
    unfold TokenInstr.exec at h
    simp only [] at h
    rw [Except_bind_ok] at h
    obtain ⟨u, hu, h⟩ := h
    cases h
    obtain ⟨ho, b, hb⟩ := uninitialized_ok hu
    exact .of_raw hb
  | initializeAccount k m o =>
    unfold TokenInstr.exec at h
    simp only [] at h
    rw [Except_bind_ok] at h
    obtain ⟨u, hu, h⟩ := h
    rw [Except_bind_ok] at h
    obtain ⟨m1, _, h⟩ := h
    cases h
    obtain ⟨ho, b, hb⟩ := uninitialized_ok hu
    exact .of_raw hb
  | initializeMultisig k m keys =>
    unfold TokenInstr.exec at h
    simp only [] at h
    rw [Except_bind_ok] at h
    obtain ⟨u, hu, h⟩ := h
    rw [req_bind] at h
    obtain ⟨_, h⟩ := h
    cases h
    obtain ⟨ho, b, hb⟩ := uninitialized_ok hu
    exact .of_raw hb
  | transfer src dst a x => exact transfer_noIssue h
  | mintTo m dst a x =>
    exact mintTo_noIssue (fun ha hs => hn a hs (approves_consents ha)) h
  | burn src m a x => exact burn_noIssue h
  | approve src d a x =>
    unfold TokenInstr.exec at h
    simp only [] at h
    rw [Except_bind_ok] at h
    obtain ⟨t, ht, h⟩ := h
    rw [req_bind] at h
    obtain ⟨hf, h⟩ := h
    rw [Except_bind_ok] at h
    obtain ⟨u, _, h⟩ := h
    cases h
    rw [getToken_ok] at ht
    exact .of_token ht.2
  | revoke src a =>
    unfold TokenInstr.exec at h
    simp only [] at h
    rw [Except_bind_ok] at h
    obtain ⟨t, ht, h⟩ := h
    rw [req_bind] at h
    obtain ⟨hf, h⟩ := h
    rw [Except_bind_ok] at h
    obtain ⟨u, _, h⟩ := h
    cases h
    rw [getToken_ok] at ht
    exact .of_token ht.2
  | setAuthority k kind a new =>
    exact setAuthority_noIssue (fun ha hs => hn a hs (approves_consents ha)) h
  | closeAccount k dst a =>
    unfold TokenInstr.exec at h
    simp only [] at h
    rw [req_bind] at h
    obtain ⟨_, h⟩ := h
    rw [Except_bind_ok] at h
    obtain ⟨t, ht, h⟩ := h
    rw [req_bind] at h
    obtain ⟨h0, h⟩ := h
    rw [Except_bind_ok] at h
    obtain ⟨u, _, h⟩ := h
    cases h
    rw [getToken_ok] at ht
    exact .of_token ht.2
  | freezeAccount k m a => exact toggleFreeze_noIssue h
  | thawAccount k m a => exact toggleFreeze_noIssue h
  | syncNative k x =>
    obtain ⟨t, ht, hm, hx, rfl⟩ := syncNative_ok h
    exact .of_token ht.2

end Token

/-! ### Instructions of this program -/

theorem tokenTransfer_noIssue {signers : List Pubkey} {swap tp src dst a m : Pubkey} {bump : UInt8}
    {x : UInt64} {w w' : World}
    (h : tokenTransfer env signers swap tp src dst a bump x w = .ok w') : NoIssue env S m w w' := by
  unfold tokenTransfer at h
  rw [req_bind] at h
  obtain ⟨_, h⟩ := h
  rw [Except_bind_ok] at h
  obtain ⟨f, _, h⟩ := h
  exact Token.transfer_noIssue h

theorem transferIfPos_noIssue {signers : List Pubkey} {swap tp src dst a m : Pubkey} {bump : UInt8}
    {x : UInt64} {w w' : World}
    (h : tokenTransferIfPos env signers swap tp src dst a bump x w = .ok w') :
    NoIssue env S m w w' := by
  rcases tokenTransferIfPos_ok h with ⟨_, rfl⟩ | ⟨_, h⟩
  · exact .refl _ _
  · exact tokenTransfer_noIssue h

theorem tokenBurn_noIssue {signers : List Pubkey} {swap tp src q a m : Pubkey} {bump : UInt8}
    {x : UInt64} {w w' : World} (h : tokenBurn env signers swap tp src q a bump x w = .ok w') :
    NoIssue env S m w w' := by
  unfold tokenBurn at h
  rw [req_bind] at h
  obtain ⟨_, h⟩ := h
  rw [Except_bind_ok] at h
  obtain ⟨f, _, h⟩ := h
  exact Token.burn_noIssue h

theorem tokenMintTo_noIssue {signers : List Pubkey} {swap tp q dst a m : Pubkey} {bump : UInt8}
    {x : UInt64} {w w' : World} (hk : K swap) (hS : ∀ x, S x → ¬ IsPda env K x)
    (hn : ∀ x ∈ signers, ¬ S x) (h : tokenMintTo env signers swap tp q dst a bump x w = .ok w') :
    NoIssue env S m w w' := by
  unfold tokenMintTo at h
  rw [req_bind] at h
  obtain ⟨_, h⟩ := h
  rw [Except_bind_ok] at h
  obtain ⟨f, hf, h⟩ := h
  obtain ⟨pda, hp, hs⟩ := cpiSigned_ok hf
  refine Token.mintTo_noIssue (fun ha => ?_) h
  rcases (hs a).1 ha with e | rfl
  · exact hn _ e
  · exact fun hs => hS _ hs ⟨swap, bump, hk, hp⟩

theorem init_noIssue {signers : List Pubkey} {f : Fees} {c : Curve} {a : InitAccounts}
    {w w' : World} {m : Pubkey} (hk : K a.swap) (hS : ∀ x, S x → ¬ IsPda env K x)
    (hn : ∀ x ∈ signers, ¬ S x) (h : processInitialize env signers f c a w = .ok w') :
    NoIssue env S m w w' := by
  obtain ⟨tA, tB, fa, de, pm, bytes, old, w1, r⟩ := processInitialize_ok h
  refine (tokenMintTo_noIssue hk hS hn r.mint).trans ?_
  rw [r.write]
  exact .of_raw r.oldIs

theorem exec_noIssue {signers : List Pubkey} {i : Instr} {w w' : World} {m : Pubkey}
    (hk : K i.pool) (hS : ∀ x, S x → ¬ IsPda env K x) (hn : ∀ x ∈ signers, ¬ S x)
    (h : exec env signers i w = .ok w') : NoIssue env S m w w' := by
  cases i with
  | initConstantPrice a f p => exact init_noIssue hk hS hn (exec_init (.price a f p) h).2
  | initLinearPrice a c => exact init_noIssue hk hS hn (exec_init (.linear a c) h).2
  | swap a x y =>
    obtain ⟨hs, hp⟩ := exec_swap h
    obtain ⟨ts, src, dst, pm, r, pt, amtIn, amtOut, w1, w2, run⟩ := processSwap_ok hp
    refine (tokenTransfer_noIssue run.pay).trans (NoIssue.trans ?_ (tokenTransfer_noIssue run.payOut))
    rcases ownerFeeStep_none run.mint with ⟨_, rfl⟩ | ⟨amt, _, _, h⟩
    · exact .refl _ _
    · exact tokenMintTo_noIssue hk hS hn h
  | depositAll a x y z =>
    obtain ⟨hs, hp⟩ := exec_depositAll h
    obtain ⟨ts, tA, tB, pm, r, amtA, amtB, amtP, w1, w2, run⟩ := processDepositAll_ok hp
    exact ((tokenTransfer_noIssue run.payA).trans (tokenTransfer_noIssue run.payB)).trans
      (tokenMintTo_noIssue hk hS hn run.mint)
  | withdrawAll a x y z =>
    obtain ⟨hs, hp⟩ := exec_withdrawAll h
    obtain ⟨ts, tA, tB, pm, fee, burnt, r, amtA, amtB, w1, w2, w3, run⟩ := processWithdrawAll_ok hp
    exact (((transferIfPos_noIssue run.payFee).trans (tokenBurn_noIssue run.burn)).trans
      (transferIfPos_noIssue run.payA)).trans (transferIfPos_noIssue run.payB)
  | depositSingle a x y =>
    obtain ⟨hs, hp⟩ := exec_depositSingle h
    obtain ⟨ts, src, tA, tB, dir, pm, amtP, w1, run⟩ := processDepositSingle_ok hp
    exact (tokenTransfer_noIssue run.pay).trans (tokenMintTo_noIssue hk hS hn run.mint)
  | withdrawSingle a x y =>
    obtain ⟨hs, hp⟩ := exec_withdrawSingle h
    obtain ⟨ts, dst, tA, tB, dir, pm, fee, burnt, w1, w2, run⟩ := processWithdrawSingle_ok hp
    exact ((transferIfPos_noIssue run.payFee).trans (tokenBurn_noIssue run.burn)).trans
      (tokenTransfer_noIssue run.pay)

theorem Spec.Without.noIssue (hS : ∀ x, S x → ¬ IsPda env K x) {w w' : World} {m : Pubkey}
    (h : Without env sys K S w w') : NoIssue env S m w w' := by
  cases h with
  | instr signers i hk hs hn h => exact exec_noIssue hk hS hn h
  | token signers i hs hn h => exact Token.TokenInstr.noIssue hn h
  | other h hn => exact .of_same hn

theorem noIssue_all (hS : ∀ x, S x → ¬ IsPda env K x) {w w' : World} {m : Pubkey}
    (h : Relation.ReflTransGen (Without env sys K S) w w') : NoIssue env S m w w' := by
  induction h with
  | refl => exact .refl _ _
  | tail _ h ih => exact ih.trans (h.noIssue hS)

end Verif
