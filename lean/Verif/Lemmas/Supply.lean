import Verif.Spec.Supply
import Verif.Lemmas.TokenProgram
import Verif.Props.Processor
import Mathlib.Algebra.Order.BigOperators.Group.Finset
import Mathlib.Algebra.BigOperators.Ring.Finset

/-
Steps of an execution and the tokens on record (C73).
-/

namespace Verif
open Spec Processor Props

variable {env : Env} {K : Pubkey → Prop} {sys : Pubkey}

theorem held_int (w : World) (m k : Pubkey) : (held env m (w k) : Int) =
    if (w k).owner = env.tokenProgramId then when (mintOf w k = some m) (bal w k) else 0 := by
  unfold held Spec.mintOf Spec.bal tokenAt Spec.when
  cases hd : (w k).data with
  | token t =>
    simp only [Option.map_some, Option.some.injEq]
    by_cases h1 : (w k).owner = env.tokenProgramId
    · by_cases h2 : t.mint = m
      · rw [if_pos ⟨h1, h2⟩, if_pos h1, if_pos h2]
      · rw [if_neg (fun h => h2 h.2), if_pos h1, if_neg h2]; rfl
    · rw [if_neg (fun h => h1 h.1), if_neg h1]; rfl
  | mint t => simp
  | raw t => simp

theorem issued_int (w : World) (m : Pubkey) : (issued env (w m) : Int) =
    if (w m).owner = env.tokenProgramId then supply w m else 0 := by
  unfold issued Spec.supply mintAt
  cases hd : (w m).data with
  | mint t =>
    simp only []
    by_cases h1 : (w m).owner = env.tokenProgramId
    · rw [if_pos h1, if_pos h1]
    · rw [if_neg h1, if_neg h1]; rfl
  | token t => simp
  | raw t => simp

theorem sum_held (w : World) (F : Finset Pubkey) (m : Pubkey) :
    ((∑ k ∈ F, held env m (w k) : Nat) : Int) =
      total w (F.filter fun k => (w k).owner = env.tokenProgramId) m := by
  unfold total
  rw [Finset.sum_filter, Nat.cast_sum]
  exact Finset.sum_congr rfl fun k _ => held_int w m k

/-- What is on record stays accounted for.  Wrapped SOL is not on record: the supply of its mint is
always zero. -/
def Keeps (env : Env) (w w' : World) : Prop :=
  ∀ m, m ≠ Token.nativeMint → Accounted env w m → Accounted env w' m

theorem Keeps.refl (w : World) : Keeps env w w := fun _ _ h => h

theorem Keeps.trans {a b c : World} (h1 : Keeps env a b) (h2 : Keeps env b c) : Keeps env a c :=
  fun m hm h => h2 m hm (h1 m hm h)

theorem Keeps.of_pointwise {w w' : World}
    (h1 : ∀ m, m ≠ Token.nativeMint → ∀ k, held env m (w' k) = held env m (w k))
    (h2 : ∀ k, issued env (w' k) = issued env (w k)) : Keeps env w w' := by
  rintro m hm ⟨F0, h⟩
  refine ⟨F0, fun F hF => ?_⟩
  rw [h2, ← h F hF]
  exact Finset.sum_congr rfl fun k _ => h1 m hm k

theorem Keeps.of_conserved {w w' : World} {pm : Pubkey} {T : Finset Pubkey} (hf : Frame w w')
    (hT : ∀ k ∈ T, (w k).owner = env.tokenProgramId)
    (hc : ∀ F, T ⊆ F → Conserved F pm w w')
    (hpm : (w pm).owner = env.tokenProgramId ∨ supply w' pm = supply w pm) : Keeps env w w' := by
  rintro m _ ⟨F0, h⟩
  refine ⟨F0 ∪ T, fun F hF => ?_⟩
  have h0 := h F (fun k hk => hF (Finset.mem_union_left _ hk))
  have hown : ∀ k, (w' k).owner = (w k).owner := fun k => (hf k).1
  have hTG : T ⊆ F.filter fun k => (w k).owner = env.tokenProgramId := fun k hk =>
    Finset.mem_filter.2 ⟨hF (Finset.mem_union_right _ hk), hT k hk⟩
  obtain ⟨c1, c2⟩ := hc _ hTG
  have e1 := sum_held (env := env) w F m
  have e2 := sum_held (env := env) w' F m
  simp only [hown] at e2
  rw [c1 m, ← e1, h0, issued_int] at e2
  have e3 := issued_int (env := env) w' m
  rw [hown] at e3
  have e4 : ((∑ k ∈ F, held env m (w' k) : Nat) : Int) = (issued env (w' m) : Int) := by
    rw [e2, e3]
    by_cases hm : m = pm
    · rw [when_pos hm]
      by_cases ho : (w m).owner = env.tokenProgramId
      · rw [if_pos ho, if_pos ho]; omega
      · rw [if_neg ho, if_neg ho]
        rcases hpm with h1 | h1
        · rw [← hm] at h1; exact absurd h1 ho
        · rw [hm, h1]; omega
    · rw [when_neg hm, c2 m hm]; omega
  exact_mod_cast e4

theorem Moved.keeps {signed : Pubkey → Bool} {src dst a : Pubkey} {x : UInt64}
    {w w' : World} (h : Moved signed env.tokenProgramId src dst a x w w') : Keeps env w w' := by
  obtain ⟨s, hs, _⟩ := h.srcTok
  obtain ⟨d, hd, _⟩ := h.dstTok
  refine Keeps.of_conserved (pm := src) (T := {src, dst}) h.frame (fun k hk => ?_) (fun F hF => ?_)
    (Or.inr (h.supply _))
  · rw [Finset.mem_insert, Finset.mem_singleton] at hk
    rcases hk with rfl | rfl
    · exact hs
    · exact hd
  · exact h.conserved _ (hF (by simp)) (hF (by simp))

theorem Minted.keeps {signed : Pubkey → Bool} {mint dst a : Pubkey} {x : UInt64}
    {w w' : World} (h : Minted signed env.tokenProgramId mint dst a x w w') : Keeps env w w' := by
  obtain ⟨s, hs, _⟩ := h.mintAcc
  obtain ⟨d, hd, _⟩ := h.dstTok
  refine Keeps.of_conserved (pm := mint) (T := {dst}) h.frame (fun k hk => ?_) (fun F hF => ?_)
    (Or.inl hs)
  · rw [Finset.mem_singleton.1 hk]; exact hd
  · exact h.conserved (hF (by simp))

theorem Burnt.keeps {signed : Pubkey → Bool} {src mint a : Pubkey} {x : UInt64}
    {w w' : World} (h : Burnt signed env.tokenProgramId src mint a x w w') : Keeps env w w' := by
  obtain ⟨s, hs, _⟩ := h.mintAcc
  obtain ⟨d, hd, _⟩ := h.srcTok
  refine Keeps.of_conserved (pm := mint) (T := {src}) h.frame (fun k hk => ?_) (fun F hF => ?_)
    (Or.inl hs)
  · rw [Finset.mem_singleton.1 hk]; exact hd
  · exact h.conserved (hF (by simp))

theorem held_raw {m : Pubkey} {a : Account} {b : List UInt8} (h : a.data = .raw b) :
    held env m a = 0 := by
  unfold held; rw [h]

theorem issued_raw {a : Account} {b : List UInt8} (h : a.data = .raw b) : issued env a = 0 := by
  unfold issued; rw [h]

theorem held_foreign {m : Pubkey} {a : Account} (h : a.owner ≠ env.tokenProgramId) :
    held env m a = 0 := by
  unfold held
  split
  · exact if_neg fun h' => h h'.1
  · rfl

theorem issued_foreign {a : Account} (h : a.owner ≠ env.tokenProgramId) : issued env a = 0 := by
  unfold issued
  split
  · exact if_neg h
  · rfl

/-- Replacing the contents of one account by others that count the same. -/
theorem Keeps.of_set {w w' : World} {k : Pubkey} (hsame : ∀ j, j ≠ k → w' j = w j)
    (h1 : ∀ m, m ≠ Token.nativeMint → held env m (w' k) = held env m (w k))
    (h2 : issued env (w' k) = issued env (w k)) : Keeps env w w' := by
  refine Keeps.of_pointwise (fun m hm j => ?_) (fun j => ?_)
  · by_cases e : j = k
    · rw [e]; exact h1 m hm
    · rw [hsame j e]
  · by_cases e : j = k
    · rw [e]; exact h2
    · rw [hsame j e]

theorem setData_ne {w : World} {k : Pubkey} {d : Data} : ∀ j, j ≠ k → w.setData k d j = w j :=
  fun _ h => if_neg h

theorem setData_at {w : World} {k : Pubkey} {d : Data} : w.setData k d k = ⟨(w k).owner, d⟩ :=
  if_pos rfl

theorem Keeps.of_setData {w : World} {k : Pubkey} {d : Data}
    (h1 : ∀ m, m ≠ Token.nativeMint → held env m ⟨(w k).owner, d⟩ = held env m (w k))
    (h2 : issued env ⟨(w k).owner, d⟩ = issued env (w k)) : Keeps env w (w.setData k d) :=
  Keeps.of_set setData_ne (by rw [setData_at]; exact h1) (by rw [setData_at]; exact h2)

/-- Contents of one account: rewriting a token account without touching mint and amount. -/
theorem Keeps.of_token {w : World} {k : Pubkey} {t t' : TokenAccount} (h : (w k).data = .token t)
    (h1 : t'.mint = t.mint) (h2 : t'.amount = t.amount) :
    Keeps env w (w.setData k (.token t')) := by
  apply Keeps.of_setData
  · intro m _
    unfold held
    rw [h]
    simp only [h1, h2]
  · unfold issued
    rw [h]

theorem Keeps.of_mint {w : World} {k : Pubkey} {t t' : Mint} (h : (w k).data = .mint t)
    (h1 : t'.supply = t.supply) : Keeps env w (w.setData k (.mint t')) := by
  apply Keeps.of_setData
  · intro m _
    unfold held
    rw [h]
  · unfold issued
    rw [h]
    simp only [h1]

namespace Token

theorem setAuthority_keeps {signed : Pubkey → Bool} {k a : Pubkey} {kind : AuthorityType}
    {new : Option Pubkey} {w w' : World}
    (h : setAuthority env.tokenProgramId signed k kind a new w = .ok w') : Keeps env w w' := by
  unfold setAuthority at h
  rw [req_bind] at h
  obtain ⟨ho, h⟩ := h
  split at h
  · rename_i t ht
    rw [req_bind] at h
    obtain ⟨_, h⟩ := h
    split at h
    · rw [Except_bind_ok] at h
      obtain ⟨u, hv, h⟩ := h
      rw [Except_bind_ok] at h
      obtain ⟨o, _, h⟩ := h
      cases h
      exact Keeps.of_token ht rfl rfl
    · rw [Except_bind_ok] at h
      obtain ⟨u, hv, h⟩ := h
      cases h
      exact Keeps.of_token ht rfl rfl
    · cases h
  · rename_i m hm
    split at h
    · rw [Except_bind_ok] at h
      obtain ⟨a', ha', h⟩ := h
      rw [Except_bind_ok] at h
      obtain ⟨u, hv, h⟩ := h
      cases h
      exact Keeps.of_mint hm rfl
    · rw [Except_bind_ok] at h
      obtain ⟨a', ha', h⟩ := h
      rw [Except_bind_ok] at h
      obtain ⟨u, hv, h⟩ := h
      cases h
      exact Keeps.of_mint hm rfl
    · cases h
  · cases h

theorem toggleFreeze_keeps {signed : Pubkey → Bool} {k m a : Pubkey} {fr : Bool} {w w' : World}
    (h : toggleFreeze env.tokenProgramId signed k m a fr w = .ok w') : Keeps env w w' := by
  unfold toggleFreeze at h
  rw [Except_bind_ok] at h
  obtain ⟨t, ht, h⟩ := h
  rw [req_bind, req_bind] at h
  obtain ⟨_, _, h⟩ := h
  rw [Except_bind_ok] at h
  obtain ⟨m1, _, h⟩ := h
  rw [Except_bind_ok] at h
  obtain ⟨a1, _, h⟩ := h
  rw [Except_bind_ok] at h
  obtain ⟨u, _, h⟩ := h
  cases h
  rw [getToken_ok] at ht
  exact Keeps.of_token ht.2 rfl rfl

theorem TokenInstr.keeps {signers : List Pubkey} {i : TokenInstr} {w w' : World}
    (h : i.exec env.tokenProgramId signers w = .ok w') : Keeps env w w' := by
  cases i with
  | initializeMint k a f =>
    unfold TokenInstr.exec at h
    simp only [] at h
    rw [Except_bind_ok] at h
    obtain ⟨u, hu, h⟩ := h
    cases h
    obtain ⟨ho, b, hb⟩ := uninitialized_ok hu
    refine Keeps.of_setData (fun m _ => ?_) ?_
    · rw [held_raw hb]; rfl
    · rw [issued_raw hb]; unfold issued; simp
  | initializeAccount k m o =>
    unfold TokenInstr.exec at h
    simp only [] at h
    rw [Except_bind_ok] at h
    obtain ⟨u, hu, h⟩ := h
    rw [Except_bind_ok] at h
    obtain ⟨m1, _, h⟩ := h
    cases h
    obtain ⟨ho, b, hb⟩ := uninitialized_ok hu
    refine Keeps.of_setData (fun m _ => ?_) ?_
    · rw [held_raw hb]; unfold held; simp
    · rw [issued_raw hb]; rfl
  | initializeMultisig k m keys =>
    unfold TokenInstr.exec at h
    simp only [] at h
    rw [Except_bind_ok] at h
    obtain ⟨u, hu, h⟩ := h
    rw [req_bind] at h
    obtain ⟨_, h⟩ := h
    cases h
    obtain ⟨ho, b, hb⟩ := uninitialized_ok hu
    refine Keeps.of_setData (fun m _ => ?_) ?_
    · rw [held_raw hb]; rfl
    · rw [issued_raw hb]; rfl
  | transfer src dst a x => exact (transfer_ok h).keeps
  | mintTo m dst a x => exact (mintTo_ok h).keeps
  | burn src m a x => exact (burn_ok h).keeps
  | approve src d a x =>
    unfold TokenInstr.exec at h
    simp only [] at h
    rw [Except_bind_ok] at h
    obtain ⟨t, ht, h⟩ := h
    rw [req_bind] at h
    obtain ⟨_, h⟩ := h
    rw [Except_bind_ok] at h
    obtain ⟨u, hv, h⟩ := h
    cases h
    rw [getToken_ok] at ht
    exact Keeps.of_token ht.2 rfl rfl
  | revoke src a =>
    unfold TokenInstr.exec at h
    simp only [] at h
    rw [Except_bind_ok] at h
    obtain ⟨t, ht, h⟩ := h
    rw [req_bind] at h
    obtain ⟨_, h⟩ := h
    rw [Except_bind_ok] at h
    obtain ⟨u, hv, h⟩ := h
    cases h
    rw [getToken_ok] at ht
    exact Keeps.of_token ht.2 rfl rfl
  | setAuthority k kind a new => exact setAuthority_keeps h
  | closeAccount k dst a =>
    unfold TokenInstr.exec at h
    simp only [] at h
    rw [req_bind] at h
    obtain ⟨_, h⟩ := h
    rw [Except_bind_ok] at h
    obtain ⟨t, ht, h⟩ := h
    rw [req_bind] at h
    obtain ⟨h0, h⟩ := h
    rw [Except_bind_ok] at h
    obtain ⟨u, hv, h⟩ := h
    cases h
    rw [getToken_ok] at ht
    refine Keeps.of_setData (fun m hm => ?_) ?_
    · unfold held
      rw [ht.2]
      rcases h0 with h0 | h0
      · simp only [h0]
        rw [if_neg fun e => hm e.2.symm]
      · simp [h0]
    · unfold issued
      rw [ht.2]
  | freezeAccount k m a => exact toggleFreeze_keeps h
  | thawAccount k m a => exact toggleFreeze_keeps h
  | syncNative k x =>
    obtain ⟨t, ht, hm, hx, rfl⟩ := syncNative_ok h
    refine Keeps.of_setData (fun m hn => ?_) ?_
    · unfold held
      rw [ht.2]
      simp only [hm]
      rw [if_neg fun e => hn e.2.symm, if_neg fun e => hn e.2.symm]
    · unfold issued
      rw [ht.2]

end Token

theorem Outside.keeps (he : EnvOk env K) (hst : sys ≠ env.tokenProgramId) {w w' : World}
    (h : Outside env sys K w w') : Keeps env w w' := by
  cases h with
  | token signers i hs h => exact Token.TokenInstr.keeps h
  | create k owner n hk ho h =>
    rw [h]
    have hn : (w k).owner ≠ env.tokenProgramId := by rw [ho]; exact hst
    refine Keeps.of_set (k := k) (fun j hj => set_same hj) (fun m _ => ?_) ?_
    · rw [set_at, held_foreign hn]; rfl
    · rw [set_at, issued_foreign hn]; rfl
  | system k d ho h =>
    rw [h]
    have hn : (w k).owner ≠ env.tokenProgramId := by rw [ho]; exact hst
    refine Keeps.of_set (k := k) (fun j hj => set_same hj) (fun m _ => ?_) ?_
    · rw [set_at, held_foreign hn, held_foreign hst]
    · rw [set_at, issued_foreign hn, issued_foreign hst]
  | program p h1 h2 h3 h =>
    refine Keeps.of_pointwise (fun m _ k => ?_) (fun k => ?_)
    · rcases h k with e | ⟨e, e1 | ⟨n, e1⟩⟩
      · rw [e]
      · rw [held_foreign (a := w k) (by rw [e]; exact h2),
          held_foreign (a := w' k) (by rw [e1]; exact h2)]
      · rw [held_foreign (a := w k) (by rw [e]; exact h2), held_raw e1]
    · rcases h k with e | ⟨e, e1 | ⟨n, e1⟩⟩
      · rw [e]
      · rw [issued_foreign (a := w k) (by rw [e]; exact h2),
          issued_foreign (a := w' k) (by rw [e1]; exact h2)]
      · rw [issued_foreign (a := w k) (by rw [e]; exact h2), issued_raw e1]
  | purge k ho hz h =>
    rw [h]
    obtain ⟨n, hz⟩ := hz
    refine Keeps.of_set (k := k) (fun j hj => set_same hj) (fun m _ => ?_) ?_
    · rw [set_at, held_raw hz]; rfl
    · rw [set_at, issued_raw hz]; rfl
  | idl k t hk ho h =>
    rw [h]
    have hn : (w k).owner ≠ env.tokenProgramId := by
      rcases ho with ho | ⟨ho, _⟩
      · rw [ho]; exact hst
      · rw [ho]; exact he.ids
    refine Keeps.of_set (k := k) (fun j hj => set_same hj) (fun m _ => ?_) ?_
    · rw [set_at, held_foreign hn]; rfl
    · rw [set_at, issued_foreign hn]; rfl

theorem ifPos_keeps {signers : List Pubkey} {swap tp src dst a : Pubkey}
    {bump : UInt8} {x : UInt64} {w w' : World}
    (h : tokenTransferIfPos env signers swap tp src dst a bump x w = .ok w') : Keeps env w w' := by
  rcases ifPos_ok h with ⟨_, rfl⟩ | ⟨_, _, _, _, _, hm⟩
  · exact Keeps.refl _
  · exact hm.keeps

theorem feeStep_keeps {signers : List Pubkey} {ts : SwapV1} {a : SwapAccounts}
    {pt : Nat} {w w' : World} (h : ownerFeeStep env signers ts a none pt w = .ok w') :
    Keeps env w w' := by
  rcases ownerFeeStep_none h with ⟨h0, rfl⟩ | ⟨amt, _, ham, h⟩
  · exact Keeps.refl _
  · obtain ⟨_, _, _, _, _, hm⟩ := tokenMintTo_ok h
    exact hm.keeps

theorem init_keeps {signers : List Pubkey} {f : Fees} {c : Curve}
    {a : InitAccounts} {w w' : World} (h : processInitialize env signers f c a w = .ok w') :
    Keeps env w w' := by
  obtain ⟨tA, tB, fa, de, pm, bytes, old, w1, r⟩ := processInitialize_ok h
  obtain ⟨_, _, _, _, _, hm⟩ := tokenMintTo_ok r.mint
  rw [r.write]
  refine hm.keeps.trans (Keeps.of_setData (fun m _ => ?_) ?_)
  · rw [held_raw r.oldIs]; rfl
  · rw [issued_raw r.oldIs]; rfl

theorem exec_keeps {signers : List Pubkey} {i : Instr} {w w' : World}
    (h : exec env signers i w = .ok w') : Keeps env w w' := by
  cases i with
  | initConstantPrice a f p => exact init_keeps (exec_init (.price a f p) h).2
  | initLinearPrice a c => exact init_keeps (exec_init (.linear a c) h).2
  | swap a x y =>
    obtain ⟨_, hp⟩ := exec_swap h
    obtain ⟨ts, src, dst, pm, r, pt, amtIn, amtOut, w1, w2, run⟩ := processSwap_ok hp
    obtain ⟨_, _, _, _, _, m1⟩ := tokenTransfer_ok run.pay
    obtain ⟨_, _, _, _, _, m3⟩ := tokenTransfer_ok run.payOut
    exact (m1.keeps.trans (feeStep_keeps run.mint)).trans m3.keeps
  | depositAll a x y z =>
    obtain ⟨_, hp⟩ := exec_depositAll h
    obtain ⟨ts, tA, tB, pm, r, amtA, amtB, amtP, w1, w2, run⟩ := processDepositAll_ok hp
    obtain ⟨_, _, _, _, _, m1⟩ := tokenTransfer_ok run.payA
    obtain ⟨_, _, _, _, _, m2⟩ := tokenTransfer_ok run.payB
    obtain ⟨_, _, _, _, _, m3⟩ := tokenMintTo_ok run.mint
    exact (m1.keeps.trans m2.keeps).trans m3.keeps
  | withdrawAll a x y z =>
    obtain ⟨_, hp⟩ := exec_withdrawAll h
    obtain ⟨ts, tA, tB, pm, fee, burnt, r, amtA, amtB, w1, w2, w3, run⟩ :=
      processWithdrawAll_ok hp
    obtain ⟨_, _, _, _, _, m2⟩ := tokenBurn_ok run.burn
    exact (((ifPos_keeps run.payFee).trans m2.keeps).trans (ifPos_keeps run.payA)).trans
      (ifPos_keeps run.payB)
  | depositSingle a x y =>
    obtain ⟨_, hp⟩ := exec_depositSingle h
    obtain ⟨ts, src, tA, tB, dir, pm, amtP, w1, run⟩ := processDepositSingle_ok hp
    obtain ⟨_, _, _, _, _, m1⟩ := tokenTransfer_ok run.pay
    obtain ⟨_, _, _, _, _, m3⟩ := tokenMintTo_ok run.mint
    exact m1.keeps.trans m3.keeps
  | withdrawSingle a x y =>
    obtain ⟨_, hp⟩ := exec_withdrawSingle h
    obtain ⟨ts, dst, tA, tB, dir, pm, fee, burnt, w1, w2, run⟩ := processWithdrawSingle_ok hp
    obtain ⟨_, _, _, _, _, m2⟩ := tokenBurn_ok run.burn
    obtain ⟨_, _, _, _, _, m3⟩ := tokenTransfer_ok run.pay
    exact ((ifPos_keeps run.payFee).trans m2.keeps).trans m3.keeps

end Verif
