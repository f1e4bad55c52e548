import Verif.Spec.Admission
import Verif.Props.Live

/-
Property C56: exactly when a pool can be created.
-/

namespace Verif.Props
open Verif Spec Processor

theorem mintTo_room {env : Env} {signed : Pubkey → Bool} {mint dst a : Pubkey} {x : UInt64}
    {w w' : World} (h : Token.mintTo env.tokenProgramId signed mint dst a x w = .ok w') :
    CanReceive env w dst mint x.toNat := by
  unfold Token.mintTo at h
  rw [Except_bind_ok] at h
  obtain ⟨d, hd, h⟩ := h
  rw [req_bind, req_bind] at h
  obtain ⟨hf, hdm, h⟩ := h
  rw [Except_bind_ok] at h
  obtain ⟨m, hm, h⟩ := h
  rw [Except_bind_ok] at h
  obtain ⟨au, hau, h⟩ := h
  rw [Except_bind_ok] at h
  obtain ⟨_, hv, h⟩ := h
  rw [Except_bind_ok] at h
  obtain ⟨da, hda, h⟩ := h
  obtain ⟨h1, h2⟩ := Token.getToken_ok.1 hd
  refine ⟨h1, d, tokenAt_some.2 h2, hdm, hf, ?_⟩
  have := optErr_ok.1 hda
  unfold checkedAdd64 at this
  split at this
  · assumption
  · cases this

theorem tokenMintTo_room {env : Env} {signers : List Pubkey} {swap tp mint dst a : Pubkey}
    {bump : UInt8} {x : UInt64} {w w' : World}
    (h : tokenMintTo env signers swap tp mint dst a bump x w = .ok w') :
    CanReceive env w dst mint x.toNat := by
  unfold tokenMintTo at h
  rw [req_bind] at h
  obtain ⟨h1, h⟩ := h
  rw [Except_bind_ok] at h
  obtain ⟨f, hf, h⟩ := h
  exact mintTo_room h

theorem startable_iff {i : Instr} {a : InitAccounts} {f : Fees} {c : Curve} (hi : InitOf i a f c)
    {x y : UInt64} : Startable c x y ↔ c.validate = .ok () ∧ c.validateSupply x y = .ok () := by
  refine ⟨startable_of, ?_⟩
  rintro ⟨h1, h2⟩
  cases hi with
  | price a f p =>
    refine ⟨?_, ?_⟩
    · rintro rfl; cases h1
    · rintro rfl; cases h2
  | linear a c =>
    obtain ⟨g1, g2, g3, g4⟩ := (C11_params c).1 h1
    obtain ⟨g5, g6⟩ := (C11_supply c x y).1 h2
    exact ⟨g1, g2, g3, g4, g6, g5⟩

theorem allowed_of {env : Env} {f : Fees} {c : Curve} {o : Pubkey}
    (h : checkConstraints f c o env.constraints = .ok ()) : Allowed env f c o := by
  intro sc hs
  rw [hs] at h
  unfold checkConstraints at h
  rw [Except_bind_ok] at h
  obtain ⟨o', h1, h⟩ := h
  rw [req_bind] at h
  obtain ⟨h2, h⟩ := h
  rw [Except_bind_ok] at h
  obtain ⟨_, h3, h4⟩ := h
  unfold SwapConstraints.validateCurve at h3
  unfold SwapConstraints.validateFees at h4
  have h3 := req_ok.1 h3
  have h4 := req_ok.1 h4
  simp only [ge_iff_le, UInt64.le_iff_toNat_le] at h4
  obtain ⟨a1, a2, a3, a4, a5, a6, a7, a8⟩ := h4
  refine ⟨h2 ▸ optErr_ok.1 h1, h3, ?_, congrArg UInt64.toNat a7⟩
  intro k
  cases k
  · exact ⟨congrArg UInt64.toNat a2, a1⟩
  · exact ⟨congrArg UInt64.toNat a4, a3⟩
  · exact ⟨congrArg UInt64.toNat a6, a5⟩
  · exact ⟨congrArg UInt64.toNat a8, le_of_eq (congrArg UInt64.toNat a7).symm⟩

theorem pack_length {s : SwapV1} {l b : List UInt8} (h : SwapVersion.pack s l = .ok b) :
    l.length = 324 := by
  cases l with
  | nil => cases h
  | cons v rest =>
    unfold SwapVersion.pack SwapV1.pack at h
    simp only [] at h
    by_cases hl : rest.length = SwapV1.LEN
    · rw [List.length_cons, hl]; rfl
    · rw [if_pos hl] at h
      cases h

/-- C52.  The dependency the conditions of `C52_swap` name is real: a swap that mints an owner fee needs
the recorded fee account to exist, unfrozen, for the pool mint. -/
theorem C52_fee_account (env : Env) (signers : List Pubkey) (a : SwapAccounts) (x y : UInt64)
    (w w' : World) (h : exec env signers (.swap a x y) w = .ok w') (ts : SwapV1)
    (hp : PoolAt env w a.swap ts) (hm : supply w' ts.pool_mint ≠ supply w ts.pool_mint) :
    ∃ t, tokenAt w ts.pool_fee_account = some t ∧ t.mint = ts.pool_mint ∧ t.frozen = false := by
  obtain ⟨_, hpr⟩ := exec_swap h
  obtain ⟨ts', src, dst, pm, r, pt, amtIn, amtOut, w1, w2, run⟩ := processSwap_ok hpr
  have e0 : ts' = ts := by
    have e1 := run.state
    rw [unpackSwap_of hp] at e1
    cases e1; rfl
  subst e0
  obtain ⟨_, _, _, _, _, m1⟩ := tokenTransfer_ok run.pay
  rcases ownerFeeStep_none run.mint with ⟨h0, _⟩ | ⟨amt, _, _, h2⟩
  · refine absurd ?_ hm
    rw [run.effect.supply, h0, show ((0 : Nat) : Int) = 0 from rfl, when_zero]
    omega
  · rw [run.mintIs, run.feeIs] at h2
    obtain ⟨_, t, ht, h3, h4, _⟩ := tokenMintTo_room h2
    have hfr := (m1.frame ts'.pool_fee_account).2
    rw [tokenAt_some.1 ht] at hfr
    cases hd : (w ts'.pool_fee_account).data with
    | raw b => rw [hd] at hfr; exact hfr.elim
    | mint b => rw [hd] at hfr; exact hfr.elim
    | token t0 =>
      rw [hd] at hfr
      obtain ⟨g1, _, g3, _⟩ := hfr
      exact ⟨t0, tokenAt_some.2 hd, g1.symm.trans h3, g3.symm.trans h4⟩

/-- Once the fee account is gone, the sample trade fails. -/
example : isOk (exec Sample.env [Sample.key 50] Sample.trade live) = true ∧
    isOk (exec Sample.env [Sample.key 50] Sample.trade
      (fun k => if k = Sample.key 16 then ⟨Sample.key 0, .raw []⟩ else live k)) = false := by
  decide +kernel

/-- C56.  An initialise instruction goes through exactly when everything it asks for is in order. -/
theorem C56_initialize (env : Env) (K : Pubkey → Prop) (he : EnvOk env K) (signers : List Pubkey)
    (i : Instr) (a : InitAccounts) (f : Fees) (c : Curve) (hi : InitOf i a f c) (hK : K a.swap)
    (w : World) :
    (∃ w', exec env signers i w = .ok w') ↔ Admissible env w signers a f c := by
  constructor
  · rintro ⟨w', h⟩
    obtain ⟨hsig, hp⟩ := exec_init hi h
    obtain ⟨tA, tB, fa, de, pm, bytes, old, w1, r⟩ := processInitialize_ok hp
    obtain ⟨htp, _, _, _, _, hm⟩ := tokenMintTo_ok r.mint
    have hroom := tokenMintTo_room r.mint
    have hfr := hm.frame a.swap
    have hraw : (w a.swap).data = .raw old := by
      have h2 := hfr.2
      rw [r.oldIs] at h2
      cases hd : (w a.swap).data with
      | raw b => rw [hd] at h2; rw [show old = b from h2]
      | token t => rw [hd] at h2; exact h2.elim
      | mint t => rw [hd] at h2; exact h2.elim
    refine ⟨hsig, r.auth, htp, ⟨hfr.1.symm.trans r.owner, old, hraw, pack_length r.bytesIs⟩, ?_,
      ⟨tA, tB, tokenAt_some.2 r.tokA.2, tokenAt_some.2 r.tokB.2, ?_, ?_, r.mints, ?_⟩, ?_, ?_,
      ⟨r.feeTok.1.trans htp, fa, tokenAt_some.2 r.feeTok.2, r.feeMint.symm, r.ownFee.symm,
        allowed_of r.constraints⟩, ⟨de, tokenAt_some.2 r.destTok.2, r.ownDest.symm⟩, hroom,
      (C15_validate f).1 r.feesOk⟩
    · rintro s ⟨_, l, h1, h2⟩
      have := r.fresh
      unfold isInitialized at this
      rw [h1] at this
      simp only [] at this
      unfold SwapVersion.isInitialized at this
      rw [h2] at this
      have hs := unpack_initialized h2
      simp only [] at this
      rw [hs] at this
      cases this
    · exact ⟨r.tokA.1.trans htp, tA, r.tokA.2, rfl, r.ownA.symm, r.delA, r.closeA⟩
    · exact ⟨r.tokB.1.trans htp, tB, r.tokB.2, rfl, r.ownB.symm, r.delB, r.closeB⟩
    · exact (startable_iff hi).2 ⟨r.curveOk, r.supply⟩
    · exact ⟨r.mintAcc.1.trans htp, pm, r.mintAcc.2, r.mintAuth.symm, r.freeze⟩
    · rw [supply_mint r.mintAcc.2, r.supply0]; rfl
  · rintro ⟨h1, h2, h3, ⟨h4, l, h5, h6⟩, h7, ⟨tA, tB, h8, h9, h10, h11, h12, h13⟩, h14, h15,
      ⟨h16, fa, h17, h18, h19, h20⟩, ⟨de, h21, h22⟩, h23, h24⟩
    obtain ⟨pm, hpm⟩ : ∃ pm, (w a.poolMint).data = .mint pm := ⟨_, h14.2.choose_spec.1⟩
    have hz : pm.supply = 0 := by
      rw [supply_mint hpm] at h15
      apply UInt64.toNat_inj.1
      exact_mod_cast h15
    exact C54_initialize env K he signers i a f c hi hK h1 w l tA tB fa de pm h2 h3 h4 h5 h6 h7 h10
      h8 h11 h9 h12 h13 h14 (mintAt_some.2 hpm) hz h16 h17 h18 h19 h21 h22 h23 h20 h24

example : Admissible Sample.env Sample.start [Sample.key 1] Sample.init1 ⟨0, 1, 0, 1, 0, 1, 0, 1⟩
    (.linear Sample.lin) :=
  (C56_initialize Sample.env samplePools sample_ok _ Sample.initLinear _ _ _ (.linear _ _)
    (Or.inl rfl) _).1 (of_isOk (by decide +kernel))
/-- Without the pool account's signature the same instruction is refused. -/
example : ¬ ∃ w', exec Sample.env [] Sample.initLinear Sample.start = .ok w' := fun h =>
  absurd ((C56_initialize Sample.env samplePools sample_ok _ Sample.initLinear _ _ _ (.linear _ _)
    (Or.inl rfl) _).1 h).signed (by decide)

end Verif.Props
