import Verif.Props.Processor
import Verif.Spec.Chain

/-
Invariants of executions.
-/

namespace Verif
open Spec Processor Props

variable {K : Pubkey → Prop}

theorem Spec.SoleOwner.frame {w w' : World} {k m o : Pubkey} (h : SoleOwner env w k m o)
    (hf : Frame w w') : SoleOwner env w' k m o := by
  obtain ⟨h1, t, h2, h3, h4, h5, h6⟩ := h
  obtain ⟨t', a1, a2, a3, a4, a5, a6⟩ := hf.token h2
  refine ⟨(hf k).1.trans h1, t', a1, a2.trans h3, a3.trans h4, ?_, a5.trans h6⟩
  rcases a6 with a6 | a6
  · exact a6.trans h5
  · exact a6

theorem Spec.SoleMinter.frame {w w' : World} {k o : Pubkey} (h : SoleMinter env w k o)
    (hf : Frame w w') : SoleMinter env w' k o := by
  obtain ⟨h1, t, h2, h3, h4⟩ := h
  obtain ⟨t', a1, a2, a3⟩ := hf.mint h2
  exact ⟨(hf k).1.trans h1, t', a1, a2.trans h3, a3.trans h4⟩

theorem Spec.SoleOwner.congr {w w' : World} {k m o : Pubkey} (h : SoleOwner env w k m o)
    (hk : w' k = w k) : SoleOwner env w' k m o := by
  unfold SoleOwner at *
  rw [hk]; exact h

theorem Spec.SoleMinter.congr {w w' : World} {k o : Pubkey} (h : SoleMinter env w k o)
    (hk : w' k = w k) : SoleMinter env w' k o := by
  unfold SoleMinter at *
  rw [hk]; exact h

theorem Spec.SoleOwner.envStep {w w' : World} {k m o : Pubkey} (h : SoleOwner env w k m o)
    (ho : IsPda env K o) (hf : EnvStep env K w w') : SoleOwner env w' k m o ∧ bal w k ≤ bal w' k := by
  obtain ⟨h1, t, h2, h3, h4, h5, h6⟩ := h
  obtain ⟨a1, t', a2, a3, a4, a5, a6, a7⟩ := hf.vault k t h1 h2 (h4 ▸ ho) h5 h6
  refine ⟨⟨a1, t', a2, a3.trans h3, a4.trans h4, a5, a6⟩, ?_⟩
  rw [bal_token h2, bal_token a2]
  exact_mod_cast a7

theorem Spec.SoleMinter.envStep {w w' : World} {k o : Pubkey} (h : SoleMinter env w k o)
    (ho : IsPda env K o) (hf : EnvStep env K w w') :
    SoleMinter env w' k o ∧ supply w' k ≤ supply w k := by
  obtain ⟨h1, t, h2, h3, h4⟩ := h
  obtain ⟨a1, t', a2, a3, a4, a5⟩ := hf.mint k t o h1 h2 h3 ho
  refine ⟨⟨a1, t', a2, a3, a5 h4⟩, ?_⟩
  rw [supply_mint h2, supply_mint a2]
  exact_mod_cast a4

/-! ### Instructions -/

/-- Instructions other than initialise only move balances and supplies. -/
theorem exec_frame {signers : List Pubkey} {i : Instr} {w w' : World}
    (h : exec env signers i w = .ok w') : (∃ a f c, InitOf i a f c) ∨ Frame w w' := by
  cases i with
  | initConstantPrice a f p => exact Or.inl ⟨_, _, _, .price a f p⟩
  | initLinearPrice a c => exact Or.inl ⟨_, _, _, .linear a c⟩
  | swap a x y =>
    obtain ⟨_, hp⟩ := exec_swap h
    obtain ⟨ts, src, dst, pm, r, pt, amtIn, amtOut, w1, w2, run⟩ := processSwap_ok hp
    exact Or.inr run.effect.frame
  | depositAll a x y z =>
    obtain ⟨_, hp⟩ := exec_depositAll h
    obtain ⟨ts, tA, tB, pm, r, amtA, amtB, amtP, w1, w2, run⟩ := processDepositAll_ok hp
    exact Or.inr run.effect.frame
  | withdrawAll a x y z =>
    obtain ⟨_, hp⟩ := exec_withdrawAll h
    obtain ⟨ts, tA, tB, pm, fee, burnt, r, amtA, amtB, w1, w2, w3, run⟩ := processWithdrawAll_ok hp
    exact Or.inr run.effect.frame
  | depositSingle a x y =>
    obtain ⟨_, hp⟩ := exec_depositSingle h
    obtain ⟨ts, src, tA, tB, dir, pm, amtP, w1, run⟩ := processDepositSingle_ok hp
    exact Or.inr run.effect.frame
  | withdrawSingle a x y =>
    obtain ⟨_, hp⟩ := exec_withdrawSingle h
    obtain ⟨ts, dst, tA, tB, dir, pm, fee, burnt, w1, w2, run⟩ := processWithdrawSingle_ok hp
    exact Or.inr run.effect.frame

/-- A supply grows only if the mint is controlled by a derived address of the pool named. -/
theorem exec_supply (he : EnvOk env K) {signers : List Pubkey} {i : Instr} {w w' : World}
    (hK : K i.pool) (h : exec env signers i w = .ok w') {m : Pubkey} (hm : supply w m < supply w' m) :
    ∃ b pda mm, env.createPda i.pool b = some pda ∧ (w m).data = .mint mm ∧
      mm.mint_authority = some pda := by
  have init : ∀ {f : Fees} {c : Curve} {a : InitAccounts},
      K a.swap → processInitialize env signers f c a w = .ok w' → ∃ b pda mm,
        env.createPda a.swap b = some pda ∧ (w m).data = .mint mm ∧
        mm.mint_authority = some pda := by
    intro f c a hK hp
    obtain ⟨tA, tB, fa, de, pm, bytes, old, w1, r⟩ := processInitialize_ok hp
    have e : m = a.poolMint := by
      by_contra hc
      rw [r.write, (write_bal r.oldIs m).2.1, r.minted.supply, when_neg hc] at hm
      omega
    refine ⟨_, _, pm, he.find a.swap hK, by rw [e]; exact r.mintAcc.2, ?_⟩
    rw [← r.mintAuth, r.auth]
  have mint : ∀ {p tp mint dst a : Pubkey} {b : UInt8} {x : UInt64} {u v : World}
      (_ : Frame w u) (_ : ∀ k, supply u k ≤ supply w k) (_ : supply w' m ≤ supply v m)
      (_ : env.createPda p b = some a)
      (_ : tokenMintTo env signers p tp mint dst a b x u = .ok v), ∃ b pda mm,
        env.createPda p b = some pda ∧ (w m).data = .mint mm ∧ mm.mint_authority = some pda := by
    intro p tp mint dst a b x u v hf hs hv hp ht
    obtain ⟨_, _, _, _, _, mm⟩ := tokenMintTo_ok ht
    have e : m = mint := by
      by_contra hc
      have := mm.supply m
      rw [when_neg hc] at this
      have := hs m
      omega
    obtain ⟨m1, _, h1, h2⟩ := mm.mintAcc
    obtain ⟨m0, h3, h4, _⟩ := hf.mint_inv h1
    exact ⟨b, a, m0, hp, by rw [e]; exact h3, by rw [← h4]; exact h2⟩
  cases i with
  | initConstantPrice a f p => exact init hK (exec_init (.price a f p) h).2
  | initLinearPrice a c => exact init hK (exec_init (.linear a c) h).2
  | swap a x y =>
    obtain ⟨_, hp⟩ := exec_swap h
    obtain ⟨ts, src, dst, pm, r, pt, amtIn, amtOut, w1, w2, run⟩ := processSwap_ok hp
    obtain ⟨_, _, _, _, _, m1⟩ := tokenTransfer_ok run.pay
    obtain ⟨_, _, _, _, _, m3⟩ := tokenTransfer_ok run.payOut
    rcases ownerFeeStep_none run.mint with ⟨_, h2⟩ | ⟨amt, _, _, h2⟩
    · rw [m3.supply, h2, m1.supply] at hm; omega
    · exact mint m1.frame (fun k => le_of_eq (m1.supply k)) (le_of_eq (m3.supply m)) run.pda h2
  | depositAll a x y z =>
    obtain ⟨_, hp⟩ := exec_depositAll h
    obtain ⟨ts, tA, tB, pm, r, amtA, amtB, amtP, w1, w2, run⟩ := processDepositAll_ok hp
    obtain ⟨_, _, _, _, _, m1⟩ := tokenTransfer_ok run.payA
    obtain ⟨_, _, _, _, _, m2⟩ := tokenTransfer_ok run.payB
    exact mint (m1.frame.trans m2.frame)
      (fun k => le_of_eq ((m2.supply k).trans (m1.supply k))) (le_refl _) run.checked.pda run.mint
  | withdrawAll a x y z =>
    obtain ⟨_, hp⟩ := exec_withdrawAll h
    obtain ⟨ts, tA, tB, pm, fee, burnt, r, amtA, amtB, w1, w2, w3, run⟩ := processWithdrawAll_ok hp
    rw [run.effect.supply] at hm
    have := when_nonneg (c := m = ts.pool_mint) (Int.natCast_nonneg burnt.toNat)
    omega
  | depositSingle a x y =>
    obtain ⟨_, hp⟩ := exec_depositSingle h
    obtain ⟨ts, src, tA, tB, dir, pm, amtP, w1, run⟩ := processDepositSingle_ok hp
    obtain ⟨_, _, _, _, _, m1⟩ := tokenTransfer_ok run.pay
    exact mint m1.frame (fun k => le_of_eq (m1.supply k)) (le_refl _) run.checked.pda run.mint
  | withdrawSingle a x y =>
    obtain ⟨_, hp⟩ := exec_withdrawSingle h
    obtain ⟨ts, dst, tA, tB, dir, pm, fee, burnt, w1, w2, run⟩ := processWithdrawSingle_ok hp
    rw [run.effect.supply] at hm
    have := when_nonneg (c := m = ts.pool_mint) (Int.natCast_nonneg burnt.toNat)
    omega

/-- The ledger after an initialise: a frame step, then bytes written at the pool's address. -/
theorem init_shape {signers : List Pubkey} {i : Instr} {a : InitAccounts} {f : Fees}
    {c : Curve} {w w' : World} (hi : InitOf i a f c) (h : exec env signers i w = .ok w') :
    ∃ w1, Frame w w1 ∧ (∀ k, k ≠ a.swap → w' k = w1 k) ∧ (w' a.swap).owner = (w a.swap).owner ∧
      ∃ old, (w a.swap).data = .raw old := by
  obtain ⟨_, hp⟩ := exec_init hi h
  obtain ⟨tA, tB, fa, de, pm, bytes, old, w1, r⟩ := processInitialize_ok hp
  refine ⟨w1, r.minted.frame, fun k hk => ?_, ?_, ?_⟩
  · rw [r.write]; unfold World.setData; rw [if_neg hk]
  · rw [r.write, setData_owner]; exact (r.minted.frame a.swap).1
  · have hd := (r.minted.frame a.swap).2
    rw [r.oldIs] at hd
    cases hq : (w a.swap).data with
    | raw b => exact ⟨b, rfl⟩
    | token t => rw [hq] at hd; exact hd.elim
    | mint t => rw [hq] at hd; exact hd.elim

theorem init_pool {i : Instr} {a : InitAccounts} {f : Fees} {c : Curve} (hi : InitOf i a f c) :
    i.pool = a.swap := by cases hi <;> rfl

theorem init_signer {i : Instr} {a : InitAccounts} {f : Fees} {c : Curve} (hi : InitOf i a f c) :
    i.signer = a.swap := by cases hi <;> rfl

theorem poolAt_congr {w w' : World} {k : Pubkey} {s : SwapV1}
    (ho : (w' k).owner = (w k).owner) (hd : (w' k).data = (w k).data) (h : PoolAt env w k s) :
    PoolAt env w' k s := by
  unfold PoolAt at *
  rw [ho, hd]; exact h

theorem unpack_initialized {l : List UInt8} {s : SwapV1} (h2 : SwapVersion.unpack l = .ok s) :
    s.is_initialized = true := by
  unfold SwapVersion.unpack at h2
  split at h2
  · cases h2
  · split at h2
    · unfold SwapV1.unpack at h2
      split at h2
      · cases h2
      · rw [Except_bind_ok] at h2
        obtain ⟨s', _, h3⟩ := h2
        split at h3
        · rename_i hi'; cases h3; exact hi'
        · cases h3
    · cases h2

theorem unpack_zeros (n : Nat) (s : SwapV1) : SwapVersion.unpack (List.replicate n 0) ≠ .ok s := by
  cases n with
  | zero => intro h; cases h
  | succ n =>
    intro h
    rw [List.replicate_succ] at h
    unfold SwapVersion.unpack at h
    simp only [] at h
    rw [if_neg (by decide)] at h
    cases h

theorem unpack_head {l : List UInt8} {s : SwapV1} (h : SwapVersion.unpack l = .ok s) :
    l.head? = some 1 := by
  unfold SwapVersion.unpack at h
  split at h
  · cases h
  · split at h
    · rename_i hv; rw [List.head?_cons, hv]
    · cases h

/-- IDL accounts are not pools. -/
theorem idl_not_pool {w : World} {k : Pubkey} {s : SwapV1} (h : IdlData (w k).data) :
    ¬ PoolAt env w k s := by
  rintro ⟨_, l, hl, hu⟩
  obtain ⟨t, ht⟩ := h
  rw [hl] at ht
  have := unpack_head hu
  rw [Data.raw.inj ht] at this
  revert this
  simp [idlTag]

/-- Pools cannot be overwritten by the IDL instructions. -/
theorem idl_not_writable {w : World} {k : Pubkey} {s : SwapV1} (h : PoolAt env w k s) :
    ¬ IdlWritable (w k).data := by
  rintro (hd | ⟨t, ht⟩)
  · exact idl_not_pool hd h
  · obtain ⟨_, l, hl, hu⟩ := h
    rw [hl] at ht
    have := unpack_head hu
    rw [Data.raw.inj ht] at this
    revert this
    simp [List.replicate]

/-- Bytes of a pool survive any step. -/
theorem step_pool {w w' : World} {k : Pubkey} {s : SwapV1} (hp : PoolAt env w k s)
    (h : Step env K w w') : (w' k).owner = (w k).owner ∧ (w' k).data = (w k).data := by
  cases h with
  | other h =>
    rcases h.program k hp.1 with h | ⟨_, h, _⟩
    · rw [h]; exact ⟨rfl, rfl⟩
    · exact absurd h (idl_not_writable hp)
  | instr signers i hK hs h =>
    obtain ⟨_, l, hl, _⟩ := id hp
    rcases exec_frame h with ⟨a, f, c, hi⟩ | hf
    · by_cases hk : k = a.swap
      · obtain ⟨_, _, _, _, _, _, _, _, _, _, _, _, _, _, _, _, _, _, _, _, _, _, _, _, _, _, _, _,
          _, hno, _⟩ := C27_initialize env signers i a f c w w' hi h
        exact absurd ⟨s, hk ▸ hp⟩ hno
      · obtain ⟨w1, hf, hw, _⟩ := init_shape hi h
        rw [hw k hk]
        exact ⟨(hf k).1, by rw [hf.raw hl, hl]⟩
    · exact ⟨(hf k).1, by rw [hf.raw hl, hl]⟩

/-- A pool present after a step was there before, or the step was its initialisation. -/
theorem step_pool_back {w w' : World} {k : Pubkey} {s : SwapV1}
    (hp : PoolAt env w' k s) (h : Step env K w w') : PoolAt env w k s ∨
      ∃ signers i a f c, K a.swap ∧ (∀ x ∈ signers, ¬ IsPda env K x) ∧ InitOf i a f c ∧
        exec env signers i w = .ok w' ∧ a.swap = k := by
  have hf : Frame w w' → PoolAt env w k s := by
    intro hf
    obtain ⟨h1, l, h2, h3⟩ := hp
    have hd := (hf k).2
    rw [h2] at hd
    refine ⟨(hf k).1.symm.trans h1, l, ?_, h3⟩
    cases hq : (w k).data with
    | raw b => rw [hq] at hd; rw [show l = b from hd]
    | token t => rw [hq] at hd; exact hd.elim
    | mint t => rw [hq] at hd; exact hd.elim
  cases h with
  | other h =>
    left
    by_cases ho : (w k).owner = env.programId
    · rcases h.program k ho with h | ⟨_, _, h⟩
      · rw [PoolAt, ← h]; exact hp
      · exact absurd hp (idl_not_pool h)
    · rcases h.fresh k ho hp.1 with ⟨n, hn⟩ | h
      · obtain ⟨_, l, h2, h3⟩ := hp
        rw [hn] at h2
        rw [← Data.raw.inj h2] at h3
        exact absurd h3 (unpack_zeros n s)
      · exact absurd hp (idl_not_pool h)
  | instr signers i hK hs h =>
    rcases exec_frame h with ⟨a, f, c, hi⟩ | hf'
    · by_cases hk : a.swap = k
      · exact Or.inr ⟨signers, i, a, f, c, init_pool hi ▸ hK, hs, hi, h, hk⟩
      · left
        obtain ⟨w1, hf1, hw, _⟩ := init_shape hi h
        have hp1 : PoolAt env w1 k s := by
          rw [PoolAt, ← hw k (fun hh => hk hh.symm)]; exact hp
        obtain ⟨h1, l, h2, h3⟩ := hp1
        have hd := (hf1 k).2
        rw [h2] at hd
        refine ⟨(hf1 k).1.symm.trans h1, l, ?_, h3⟩
        cases hq : (w k).data with
        | raw b => rw [hq] at hd; rw [show l = b from hd]
        | token t => rw [hq] at hd; exact hd.elim
        | mint t => rw [hq] at hd; exact hd.elim
    · exact Or.inl (hf hf')

theorem Spec.Custody.isPda {w : World} {k : Pubkey} {s : SwapV1} {x : Pubkey}
    (h : Custody env w k s x) (hk : K k) : IsPda env K x := ⟨_, _, hk, h.derived⟩

/-- Custody survives any step. -/
theorem Spec.Custody.step {w w' : World} {k : Pubkey} {s : SwapV1} {x : Pubkey}
    (hc : Custody env w k s x) (hk : K k) (h : Step env K w w') : Custody env w' k s x := by
  cases h with
  | other h =>
    exact ⟨hc.derived, (hc.vaultA.envStep (hc.isPda hk) h).1, (hc.vaultB.envStep (hc.isPda hk) h).1, hc.mints,
      (hc.minter.envStep (hc.isPda hk) h).1⟩
  | instr signers i hK hs h =>
    rcases exec_frame h with ⟨a, f, c, hi⟩ | hf
    · obtain ⟨w1, hf, hw, _, old, hold⟩ := init_shape hi h
      have hA := hc.vaultA.frame hf
      have hB := hc.vaultB.frame hf
      have hM := hc.minter.frame hf
      refine ⟨hc.derived, hA.congr (hw _ ?_), hB.congr (hw _ ?_), hc.mints, hM.congr (hw _ ?_)⟩
      · intro he
        obtain ⟨_, t, ht, _⟩ := hc.vaultA
        rw [he, hold] at ht; cases ht
      · intro he
        obtain ⟨_, t, ht, _⟩ := hc.vaultB
        rw [he, hold] at ht; cases ht
      · intro he
        obtain ⟨_, t, ht, _⟩ := hc.minter
        rw [he, hold] at ht; cases ht
    · exact ⟨hc.derived, hc.vaultA.frame hf, hc.vaultB.frame hf, hc.mints, hc.minter.frame hf⟩

/-- Facts about a configuration fixed at initialisation. -/
structure Configured (env : Env) (s : SwapV1) : Prop where
  tp : s.token_program_id = env.tokenProgramId
  feeA : s.pool_fee_account ≠ s.token_a
  feeB : s.pool_fee_account ≠ s.token_b
  fees : s.fees.validate = .ok ()
  curve : s.swap_curve.validate = .ok ()
  kind : (∃ p, s.swap_curve = .constantPrice p) ∨
    ∃ l, s.swap_curve = .linear l ∧ s.fees = ⟨0, 1, 0, 1, 0, 1, 0, 1⟩

/-- What initialisation establishes. -/
theorem init_custody (he : EnvOk env K) {signers : List Pubkey} {i : Instr}
    {a : InitAccounts} {f : Fees} {c : Curve} {w w' : World} {s : SwapV1} (hK : K a.swap)
    (hi : InitOf i a f c)
    (h : exec env signers i w = .ok w') (hp : PoolAt env w' a.swap s) :
    Custody env w' a.swap s (env.findPda a.swap).1 ∧ Configured env s ∧ s.token_a = a.tokenA ∧
      s.token_b = a.tokenB ∧ s.pool_mint = a.poolMint ∧ s.pool_fee_account = a.fee ∧ s.fees = f ∧
      s.swap_curve = c := by
  obtain ⟨_, hpr⟩ := exec_init hi h
  obtain ⟨tA, tB, fa, de, pm, bytes, old, w1, r⟩ := processInitialize_ok hpr
  obtain ⟨htp, _⟩ := tokenMintTo_ok r.mint
  obtain ⟨w2, hf, hw, _, old2, hold⟩ := init_shape hi h
  have ep : PoolAt env w' a.swap _ := r.after
  have es := unpackSwap_of hp
  rw [unpackSwap_of ep] at es
  cases es
  have nsA : a.tokenA ≠ a.swap := by
    intro e; have := r.tokA.2; rw [e, hold] at this; cases this
  have nsB : a.tokenB ≠ a.swap := by
    intro e; have := r.tokB.2; rw [e, hold] at this; cases this
  have nsM : a.poolMint ≠ a.swap := by
    intro e; have := r.mintAcc.2; rw [e, hold] at this; cases this
  have cA : SoleOwner env w a.tokenA tA.mint (env.findPda a.swap).1 :=
    ⟨htp ▸ r.tokA.1, tA, r.tokA.2, rfl, r.ownA.symm.trans r.auth, r.delA, r.closeA⟩
  have cB : SoleOwner env w a.tokenB tB.mint (env.findPda a.swap).1 :=
    ⟨htp ▸ r.tokB.1, tB, r.tokB.2, rfl, r.ownB.symm.trans r.auth, r.delB, r.closeB⟩
  have cM : SoleMinter env w a.poolMint (env.findPda a.swap).1 :=
    ⟨htp ▸ r.mintAcc.1, pm, r.mintAcc.2, by rw [← r.mintAuth, r.auth], r.freeze⟩
  refine ⟨⟨he.find a.swap hK, (cA.frame hf).congr (hw _ nsA), (cB.frame hf).congr (hw _ nsB), r.mints,
    (cM.frame hf).congr (hw _ nsM)⟩, ⟨htp, ?_, ?_, r.feesOk, r.curveOk, ?_⟩, rfl, rfl, rfl, rfl, rfl,
    rfl⟩
  · intro e
    have h1 := r.feeTok.2
    rw [show a.fee = a.tokenA from e, r.tokA.2] at h1
    cases h1
    exact r.ownFee r.ownA
  · intro e
    have h1 := r.feeTok.2
    rw [show a.fee = a.tokenB from e, r.tokB.2] at h1
    cases h1
    exact r.ownFee r.ownB
  · cases hi with
    | price a f p => exact Or.inl ⟨p, rfl⟩
    | linear a c => exact Or.inr ⟨c, rfl, rfl⟩

/-- Every reachable pool was initialised by this program. -/
theorem reachable_pool (he : EnvOk env K) {w0 w : World} (h0 : NoPools env w0)
    (h : Steps env K w0 w) : ∀ k s, PoolAt env w k s →
      K k ∧ (∃ x, Custody env w k s x) ∧ Configured env s := by
  induction h with
  | refl => intro k s hp; exact absurd hp (h0 k s)
  | tail _ hstep ih =>
    intro k s hp
    rcases step_pool_back hp hstep with h1 | ⟨signers, i, a, f, c, hK, _, hi, hx, rfl⟩
    · obtain ⟨hk, ⟨x, hc⟩, hcf⟩ := ih k s h1
      exact ⟨hk, ⟨x, hc.step hk hstep⟩, hcf⟩
    · have := init_custody he hK hi hx hp
      exact ⟨hK, ⟨_, this.1⟩, this.2.1⟩

/-! ### Isolation -/

/-- No step but an instruction naming the pool lowers one of its vaults. -/
theorem vault_step (he : EnvOk env K) {w w' : World} {k v m x : Pubkey} {b : UInt8}
    (hk : K k) (hx : env.createPda k b = some x) (hv : SoleOwner env w v m x) {signers : List Pubkey}
    {i : Instr} (hs : ∀ y ∈ signers, ¬ IsPda env K y) (hi : K i.pool)
    (h : exec env signers i w = .ok w') (hne : i.pool ≠ k) : bal w v ≤ bal w' v := by
  by_contra hlt
  obtain ⟨_, t, ht, _, ho, hd, _⟩ := hv
  have spend : ∀ y, Spender w v y → y = x := by
    rintro y ⟨t', ht', hor⟩
    rw [tokenAt_some.2 ht] at ht'
    rw [← Option.some.inj ht', hd] at hor
    rcases hor with h1 | h1
    · rw [← h1, ho]
    · cases h1
  rcases C33_no_theft env signers i w w' h v (by omega) with ⟨y, hy, hsp⟩ | ⟨ts, y, _, hy, _, hsp⟩
  · exact hs y hy (spend y hsp ▸ ⟨k, b, hk, hx⟩)
  · rw [spend y hsp] at hy
    exact hne (he.inj _ _ _ _ _ hi hk hy hx)

end Verif
