import Verif.Lemmas.TokenProgram
import Verif.Props.Live

/-
C66: what third parties can do to a pool.
-/

namespace Verif
namespace Props
open Spec Token

/-- C66.  Whatever a third party does - any token-program instruction, creating accounts, any other
program within the runtime's rules, Anchor's IDL instructions - meets the contract `EnvStep` that
the theorems about executions rely on. -/
theorem C66_contract (env : Env) (sys : Pubkey) (K : Pubkey → Prop) (he : EnvOk env K)
    (hst : sys ≠ env.tokenProgramId) (hsp : sys ≠ env.programId) (w w' : World)
    (hc : Clean env sys K w) (h : Outside env sys K w w') :
    EnvStep env K w w' ∧ Clean env sys K w' := h.envStep he hst hsp hc

/-- C66.  Every ledger produced by instructions of this program and concrete steps of others, from
one without pools and with nothing at the derived addresses, is one the theorems about reachable
ledgers speak about. -/
theorem C66_executions (env : Env) (sys : Pubkey) (K : Pubkey → Prop) (he : EnvOk env K)
    (hst : sys ≠ env.tokenProgramId) (hsp : sys ≠ env.programId) (w0 w : World)
    (h0 : NoPools env w0) (hc : Clean env sys K w0) (h : Moves env sys K w0 w) :
    Reachable env K w ∧ Clean env sys K w := by
  suffices hs : Steps env K w0 w ∧ Clean env sys K w from ⟨⟨w0, h0, hs.1⟩, hs.2⟩
  induction h with
  | refl => exact ⟨.refl, hc⟩
  | tail _ hm ih =>
    obtain ⟨h1, h2⟩ := hm.step he hst hsp ih.2
    exact ⟨ih.1.tail h1, h2⟩

/-- C66.  As long as no instruction of this program names the pool, nothing leaves its vaults, no
pool token is created, and its configuration and custody stay. -/
theorem C66_vaults (env : Env) (sys : Pubkey) (K : Pubkey → Prop) (he : EnvOk env K)
    (hst : sys ≠ env.tokenProgramId) (hsp : sys ≠ env.programId) (w w' : World)
    (hr : Reachable env K w) (hc : Clean env sys K w) (k : Pubkey) (s : SwapV1)
    (hp : PoolAt env w k s) (h : Relation.ReflTransGen (Elsewhere env sys K k) w w') :
    bal w s.token_a ≤ bal w' s.token_a ∧ bal w s.token_b ≤ bal w' s.token_b ∧
    supply w' s.pool_mint ≤ supply w s.pool_mint ∧ PoolAt env w' k s ∧
    ∃ pda, Custody env w' k s pda := by
  suffices hs : (bal w s.token_a ≤ bal w' s.token_a ∧ bal w s.token_b ≤ bal w' s.token_b ∧
      supply w' s.pool_mint ≤ supply w s.pool_mint) ∧ PoolAt env w' k s ∧ Reachable env K w' ∧
      Clean env sys K w' by
    obtain ⟨⟨a, b, c⟩, d, e, _⟩ := hs
    exact ⟨a, b, c, d, C35_custody env K he w' e k s d⟩
  induction h with
  | refl => exact ⟨⟨le_rfl, le_rfl, le_rfl⟩, hp, hr, hc⟩
  | @tail b c _ hm ih =>
    obtain ⟨⟨i1, i2, i3⟩, hpb, hrb, hcb⟩ := ih
    have key : Step env K b c ∧ Clean env sys K c ∧ bal b s.token_a ≤ bal c s.token_a ∧
        bal b s.token_b ≤ bal c s.token_b ∧ supply c s.pool_mint ≤ supply b s.pool_mint := by
      cases hm with
      | instr signers i hk hs hne h =>
        have hi := C34_isolated env K he b c hrb signers hs i hk h k s hpb hne
        exact ⟨.instr signers i hk hs h, fun x hx => (exec_owner h x).trans (hcb x hx),
          hi.1, hi.2.1, hi.2.2.1⟩
      | outside h =>
        obtain ⟨e1, e2⟩ := h.envStep he hst hsp hcb
        obtain ⟨w0, hw0, hst0⟩ := hrb
        obtain ⟨hK, ⟨z, hz⟩, _⟩ := reachable_pool he hw0 hst0 k s hpb
        exact ⟨.other e1, e2, (hz.vaultA.envStep (hz.isPda hK) e1).2,
          (hz.vaultB.envStep (hz.isPda hK) e1).2, (hz.minter.envStep (hz.isPda hK) e1).2⟩
    obtain ⟨h1, h2, h3, h4, h5⟩ := key
    obtain ⟨w0, hw0, hst0⟩ := hrb
    refine ⟨⟨le_trans i1 h3, le_trans i2 h4, le_trans h5 i3⟩, ?_, ⟨w0, hw0, hst0.tail h1⟩, h2⟩
    exact (C26_pool_forever env K b c k s hpb (.single h1)).2.1

theorem plain_approves {env : Env} {w : World} {signers : List Pubkey} {a : Pubkey}
    (h : Plain env w signers a) : approves env.tokenProgramId w signers a = true := by
  unfold approves
  rw [if_neg h.1]
  exact decide_eq_true h.2

/-! ### The checks of `initialize` on vaults and mint are needed -/

/-- C66.  An account with a delegate can be emptied by the delegate, up to the allowance, without
the owner: vaults with a delegate must be refused. -/
theorem C66_delegate_drains (env : Env) (w : World) (signers : List Pubkey) (v u d : Pubkey)
    (t r : TokenAccount) (x : UInt64) (hv : (w v).owner = env.tokenProgramId)
    (ht : (w v).data = .token t) (hu : (w u).owner = env.tokenProgramId)
    (hr : (w u).data = .token r) (hne : v ≠ u) (hm : t.mint = r.mint) (ft : t.frozen = false)
    (fr : r.frozen = false) (hd : t.delegate = some d) (hs : Plain env w signers d)
    (h1 : x ≤ t.amount) (h2 : x ≤ t.delegated_amount) (h3 : r.amount.toNat + x.toNat < 2 ^ 64) :
    ∃ w', (TokenInstr.transfer v u d x).exec env.tokenProgramId signers w = .ok w' ∧
      bal w' v = bal w v - x.toNat := by
  have hsd := plain_approves hs
  rw [UInt64.le_iff_toNat_le] at h1 h2
  obtain ⟨z1, c1⟩ := checkedSub64_of h2
  obtain ⟨z2, c2⟩ := checkedSub64_of h1
  obtain ⟨z3, c3⟩ := checkedAdd64_of h3
  have ha : authorize (approves env.tokenProgramId w signers) t d x = .ok
      { t with delegated_amount := z1, delegate := if z1 = 0 then none else t.delegate } := by
    unfold authorize
    rw [if_pos hd, req_bind]
    refine ⟨hsd, ?_⟩
    rw [Except_bind_ok]
    exact ⟨z1, optErr_ok.2 c1, rfl⟩
  have hex : ∃ w', (TokenInstr.transfer v u d x).exec env.tokenProgramId signers w = .ok w' := by
    refine ⟨(w.setData v (.token { t with
        delegated_amount := z1
        delegate := if z1 = 0 then none else t.delegate
        amount := z2 })).setData u (.token { r with amount := z3 }), ?_⟩
    show Token.transfer _ _ _ _ _ _ _ = _
    unfold Token.transfer
    rw [Except_bind_ok]
    refine ⟨t, getToken_ok.2 ⟨hv, ht⟩, ?_⟩
    rw [Except_bind_ok]
    refine ⟨r, getToken_ok.2 ⟨hu, hr⟩, ?_⟩
    rw [req_bind, req_bind, req_bind]
    refine ⟨⟨ft, fr⟩, UInt64.le_iff_toNat_le.2 h1, hm, ?_⟩
    rw [Except_bind_ok]
    refine ⟨_, ha, ?_⟩
    rw [if_neg hne, Except_bind_ok]
    refine ⟨z2, optErr_ok.2 c2, ?_⟩
    rw [Except_bind_ok]
    exact ⟨z3, optErr_ok.2 c3, rfl⟩
  obtain ⟨w', hw⟩ := hex
  refine ⟨w', hw, ?_⟩
  have hmv := transfer_ok hw
  rw [hmv.bal v]
  unfold Spec.when
  rw [if_neg hne, if_pos rfl]
  omega

/-- C66.  An account that is empty, or holds wrapped SOL, can be closed by its close authority,
without the owner and with all that is in it: vaults with a close authority must be refused. -/
theorem C66_close_removes (env : Env) (w : World) (signers : List Pubkey) (v u c : Pubkey)
    (t : TokenAccount) (hv : (w v).owner = env.tokenProgramId) (ht : (w v).data = .token t)
    (h0 : t.mint = nativeMint ∨ t.amount = 0) (hne : v ≠ u) (hc : t.close_authority = some c)
    (hs : Plain env w signers c) :
    ∃ w', (TokenInstr.closeAccount v u c).exec env.tokenProgramId signers w = .ok w' ∧
      tokenAt w' v = none := by
  refine ⟨w.setData v (.raw (List.replicate 165 0)), ?_, ?_⟩
  · unfold TokenInstr.exec
    simp only []
    rw [req_bind]
    refine ⟨hne, ?_⟩
    rw [Except_bind_ok]
    refine ⟨t, getToken_ok.2 ⟨hv, ht⟩, ?_⟩
    rw [req_bind]
    refine ⟨h0, ?_⟩
    rw [Except_bind_ok]
    refine ⟨(), ?_, rfl⟩
    unfold validateOwner
    rw [req_bind, req_ok, hc]
    exact ⟨rfl, plain_approves hs⟩
  · unfold tokenAt
    rw [setData_data, if_pos rfl]

/-- C66.  Whoever holds the mint authority can issue tokens without the program: a pool mint
controlled by anybody but the derived address must be refused. -/
theorem C66_minter_inflates (env : Env) (w : World) (signers : List Pubkey) (k u a : Pubkey)
    (m : Mint) (r : TokenAccount) (x : UInt64) (hk : (w k).owner = env.tokenProgramId)
    (hm : (w k).data = .mint m) (hu : (w u).owner = env.tokenProgramId)
    (hr : (w u).data = .token r) (hmu : r.mint = k) (fr : r.frozen = false)
    (ha : m.mint_authority = some a) (hs : Plain env w signers a)
    (h1 : r.amount.toNat + x.toNat < 2 ^ 64) (h2 : m.supply.toNat + x.toNat < 2 ^ 64) :
    ∃ w', (TokenInstr.mintTo k u a x).exec env.tokenProgramId signers w = .ok w' ∧
      supply w' k = supply w k + x.toNat := by
  obtain ⟨w', hw⟩ := mintTo_of (signed := approves env.tokenProgramId w signers)
    (⟨hu, r, tokenAt_some.2 hr, hmu, fr, h1⟩ : CanReceive env w u k x.toNat) hk
    (mintAt_some.2 hm) ha h2 (plain_approves hs)
  refine ⟨w', hw, ?_⟩
  rw [(mintTo_ok hw).supply k]
  unfold Spec.when
  rw [if_pos rfl]

/-- C66.  Whoever holds the freeze authority of a mint can freeze any account of it: a pool mint
with a freeze authority must be refused, or pool tokens could be locked. -/
theorem C66_freezer_freezes (env : Env) (w : World) (signers : List Pubkey) (k u a : Pubkey)
    (m : Mint) (r : TokenAccount) (hk : (w k).owner = env.tokenProgramId)
    (hm : (w k).data = .mint m) (hu : (w u).owner = env.tokenProgramId)
    (hr : (w u).data = .token r) (hmu : r.mint = k) (fr : r.frozen = false)
    (ha : m.freeze_authority = some a) (hs : Plain env w signers a) :
    ∃ w', (TokenInstr.freezeAccount u k a).exec env.tokenProgramId signers w = .ok w' ∧
      ∃ r', tokenAt w' u = some r' ∧ r'.frozen = true := by
  refine ⟨w.setData u (.token { r with frozen := true }), ?_, { r with frozen := true }, ?_, rfl⟩
  · show toggleFreeze _ _ _ _ _ _ _ = _
    unfold toggleFreeze
    rw [Except_bind_ok]
    refine ⟨r, getToken_ok.2 ⟨hu, hr⟩, ?_⟩
    rw [req_bind, req_bind]
    refine ⟨by rw [fr]; decide, hmu, ?_⟩
    rw [Except_bind_ok]
    refine ⟨m, getMint_ok.2 ⟨hk, hm⟩, ?_⟩
    rw [Except_bind_ok]
    refine ⟨a, optErr_ok.2 ha, ?_⟩
    rw [Except_bind_ok]
    refine ⟨(), ?_, rfl⟩
    unfold validateOwner
    rw [req_bind, req_ok]
    exact ⟨rfl, plain_approves hs⟩
  · rw [tokenAt_some, setData_data, if_pos rfl]

/-- C66.  The owner of a token account can hand it to somebody else, and with the new owner the
allowance of the old one's delegate ends; only a close authority stays.  This is why a vault handed to
the derived address may not have one. -/
theorem C66_handover (env : Env) (w : World) (signers : List Pubkey) (v p : Pubkey)
    (t : TokenAccount) (hv : (w v).owner = env.tokenProgramId) (ht : (w v).data = .token t)
    (ft : t.frozen = false) (hs : Plain env w signers t.owner) :
    ∃ w', (TokenInstr.setAuthority v .AccountOwner t.owner (some p)).exec env.tokenProgramId signers w
        = .ok w' ∧
      ∃ t', tokenAt w' v = some t' ∧ t'.owner = p ∧ t'.delegate = none ∧ t'.delegated_amount = 0 ∧
        t'.mint = t.mint ∧ t'.amount = t.amount ∧ t'.close_authority = t.close_authority := by
  refine ⟨w.setData v (.token { t with owner := p, delegate := none, delegated_amount := 0 }), ?_,
    { t with owner := p, delegate := none, delegated_amount := 0 },
    by rw [tokenAt_some, setData_data, if_pos rfl], rfl, rfl, rfl, rfl, rfl, rfl⟩
  unfold TokenInstr.exec
  simp only []
  unfold Token.setAuthority
  rw [req_bind, ht]
  refine ⟨hv, ?_⟩
  simp only []
  rw [req_bind]
  refine ⟨ft, ?_⟩
  rw [Except_bind_ok]
  refine ⟨(), ?_, rfl⟩
  unfold validateOwner
  rw [req_bind, req_ok]
  exact ⟨rfl, plain_approves hs⟩

/-! ### The hypotheses are met -/

theorem sample_clean : Clean Sample.env (Sample.key 0) samplePools Sample.start := by
  rintro x ⟨k, b, hk, h⟩
  unfold Sample.env at h
  simp only [] at h
  split at h
  · rw [← Option.some.inj h]
    rcases hk with rfl | rfl <;> decide +kernel
  · cases h

theorem live_clean : Clean Sample.env (Sample.key 0) samplePools live := by
  rintro x ⟨k, b, hk, h⟩
  unfold Sample.env at h
  simp only [] at h
  split at h
  · rw [← Option.some.inj h]
    rcases hk with rfl | rfl <;> decide +kernel
  · cases h

/-- A pool is initialised in an execution as in `C66_executions`. -/
example : ∃ w, Moves Sample.env (Sample.key 0) samplePools Sample.start w ∧
    exec Sample.env [Sample.key 1] Sample.initLinear Sample.start = .ok w := by
  obtain ⟨w, h⟩ := of_isOk (x := exec Sample.env [Sample.key 1] Sample.initLinear Sample.start)
    (by decide +kernel)
  exact ⟨w, .single (.instr _ _ (Or.inl rfl) (fun x hx => by
    rw [List.mem_singleton.1 hx]; exact sample_signers _ (by decide)) h), h⟩

/-- Donating to a vault, approving a delegate on an account of one's own, burning pool tokens: all
succeed, and are steps of others. -/
example : ∃ w1 w2 w3,
    (TokenInstr.transfer (Sample.key 31) (Sample.key 4) (Sample.key 50) 5).exec
      Sample.env.tokenProgramId [Sample.key 50] live = .ok w1 ∧
    (TokenInstr.approve (Sample.key 31) (Sample.key 60) (Sample.key 50) 7).exec
      Sample.env.tokenProgramId [Sample.key 50] w1 = .ok w2 ∧
    (TokenInstr.burn (Sample.key 17) (Sample.key 15) (Sample.key 50) 1000).exec
      Sample.env.tokenProgramId [Sample.key 50] w2 = .ok w3 ∧
    Relation.ReflTransGen (Elsewhere Sample.env (Sample.key 0) samplePools (Sample.key 1)) live w3 := by
  have h : isOk (do
      let w1 ← (TokenInstr.transfer (Sample.key 31) (Sample.key 4) (Sample.key 50) 5).exec
        Sample.env.tokenProgramId [Sample.key 50] live
      let w2 ← (TokenInstr.approve (Sample.key 31) (Sample.key 60) (Sample.key 50) 7).exec
        Sample.env.tokenProgramId [Sample.key 50] w1
      (TokenInstr.burn (Sample.key 17) (Sample.key 15) (Sample.key 50) 1000).exec
        Sample.env.tokenProgramId [Sample.key 50] w2) = true := by decide +kernel
  obtain ⟨w3, h⟩ := of_isOk h
  rw [Except_bind_ok] at h
  obtain ⟨w1, h1, h⟩ := h
  rw [Except_bind_ok] at h
  obtain ⟨w2, h2, h3⟩ := h
  have hs : ∀ x ∈ [Sample.key 50], ¬ IsPda Sample.env samplePools x := by
    intro x hx
    rw [List.mem_singleton.1 hx]
    exact user
  exact ⟨w1, w2, w3, h1, h2, h3, .tail (.tail (.single (.outside (.token _ _ hs h1)))
    (.outside (.token _ _ hs h2))) (.outside (.token _ _ hs h3))⟩

/-- What does not work: taking from a vault, approving oneself on it, closing it, taking over the
pool mint. -/
example : ∀ i ∈ [TokenInstr.transfer (Sample.key 4) (Sample.key 31) (Sample.key 50) 1,
      .transfer (Sample.key 4) (Sample.key 31) (Sample.key 129) 1,
      .approve (Sample.key 4) (Sample.key 50) (Sample.key 50) 1,
      .closeAccount (Sample.key 3) (Sample.key 50) (Sample.key 50),
      .setAuthority (Sample.key 5) .MintTokens (Sample.key 129) (some (Sample.key 50)),
      .setAuthority (Sample.key 4) .AccountOwner (Sample.key 129) (some (Sample.key 50))],
    isOk (i.exec Sample.env.tokenProgramId [Sample.key 50] live) = false := by decide +kernel

/-- A ledger for the four theorems on the checks: account 3 has a delegate and account 4 a close
authority, mint 5 is controlled and can be frozen by 50. -/
def loose : World := Sample.ledger [
  (Sample.key 3, ⟨Sample.key 101, .token ⟨Sample.key 5, Sample.key 129, 40, some (Sample.key 50),
    false, 25, none⟩⟩),
  (Sample.key 4, ⟨Sample.key 101, .token ⟨Sample.key 5, Sample.key 129, 0, none, false, 0,
    some (Sample.key 50)⟩⟩),
  (Sample.key 5, ⟨Sample.key 101, .mint ⟨some (Sample.key 50), 40, some (Sample.key 50)⟩⟩),
  (Sample.key 6, Sample.tok (Sample.key 5) (Sample.key 50) 0),
  (Sample.key 7, ⟨Sample.key 101, .token ⟨nativeMint, Sample.key 129, 30, none, false, 0,
    some (Sample.key 50)⟩⟩)]

example : ∃ w', (TokenInstr.transfer (Sample.key 3) (Sample.key 6) (Sample.key 50) 25).exec
    Sample.env.tokenProgramId [Sample.key 50] loose = .ok w' ∧
    bal w' (Sample.key 3) = bal loose (Sample.key 3) - (25 : UInt64).toNat :=
  C66_delegate_drains Sample.env loose [Sample.key 50] (Sample.key 3) (Sample.key 6) (Sample.key 50)
    ⟨Sample.key 5, Sample.key 129, 40, some (Sample.key 50), false, 25, none⟩
    ⟨Sample.key 5, Sample.key 50, 0, none, false, 0, none⟩ 25 (by decide +kernel)
    (by decide +kernel) (by decide +kernel) (by decide +kernel) (by decide) rfl rfl rfl rfl
    ⟨by decide +kernel, by decide⟩ (by decide) (by decide) (by decide)
example : ∃ w', (TokenInstr.closeAccount (Sample.key 4) (Sample.key 50) (Sample.key 50)).exec
    Sample.env.tokenProgramId [Sample.key 50] loose = .ok w' ∧ tokenAt w' (Sample.key 4) = none :=
  C66_close_removes Sample.env loose [Sample.key 50] (Sample.key 4) (Sample.key 50) (Sample.key 50)
    ⟨Sample.key 5, Sample.key 129, 0, none, false, 0, some (Sample.key 50)⟩ (by decide +kernel)
    (by decide +kernel) (Or.inr rfl) (by decide) rfl ⟨by decide +kernel, by decide⟩
/-- 7 holds 30 of wrapped SOL, which go to 50. -/
example : ∃ w', (TokenInstr.closeAccount (Sample.key 7) (Sample.key 50) (Sample.key 50)).exec
    Sample.env.tokenProgramId [Sample.key 50] loose = .ok w' ∧ tokenAt w' (Sample.key 7) = none :=
  C66_close_removes Sample.env loose [Sample.key 50] (Sample.key 7) (Sample.key 50) (Sample.key 50)
    ⟨nativeMint, Sample.key 129, 30, none, false, 0, some (Sample.key 50)⟩ (by decide +kernel)
    (by decide +kernel) (Or.inl rfl) (by decide) rfl ⟨by decide +kernel, by decide⟩
/-- Lamports sent to it count once anybody asks for it, and cannot be made to count for less; with
other accounts there is nothing of the kind. -/
example : (((TokenInstr.syncNative (Sample.key 7) 45).exec Sample.env.tokenProgramId [] loose).map
      fun w => bal w (Sample.key 7)).toOption = some 45 ∧
    isOk ((TokenInstr.syncNative (Sample.key 7) 29).exec Sample.env.tokenProgramId [] loose) = false ∧
    isOk ((TokenInstr.syncNative (Sample.key 3) 45).exec Sample.env.tokenProgramId [] loose) = false := by
  decide +kernel
example : ∃ w', (TokenInstr.mintTo (Sample.key 5) (Sample.key 6) (Sample.key 50) 7).exec
    Sample.env.tokenProgramId [Sample.key 50] loose = .ok w' ∧
    supply w' (Sample.key 5) = supply loose (Sample.key 5) + (7 : UInt64).toNat :=
  C66_minter_inflates Sample.env loose [Sample.key 50] (Sample.key 5) (Sample.key 6) (Sample.key 50)
    ⟨some (Sample.key 50), 40, some (Sample.key 50)⟩
    ⟨Sample.key 5, Sample.key 50, 0, none, false, 0, none⟩ 7 (by decide +kernel)
    (by decide +kernel) (by decide +kernel) (by decide +kernel) rfl rfl rfl
    ⟨by decide +kernel, by decide⟩ (by decide) (by decide)
example : ∃ w', (TokenInstr.freezeAccount (Sample.key 6) (Sample.key 5) (Sample.key 50)).exec
    Sample.env.tokenProgramId [Sample.key 50] loose = .ok w' ∧
    ∃ r', tokenAt w' (Sample.key 6) = some r' ∧ r'.frozen = true :=
  C66_freezer_freezes Sample.env loose [Sample.key 50] (Sample.key 5) (Sample.key 6) (Sample.key 50)
    ⟨some (Sample.key 50), 40, some (Sample.key 50)⟩
    ⟨Sample.key 5, Sample.key 50, 0, none, false, 0, none⟩ (by decide +kernel)
    (by decide +kernel) (by decide +kernel) (by decide +kernel) rfl rfl rfl
    ⟨by decide +kernel, by decide⟩
example : ∃ w', (TokenInstr.setAuthority (Sample.key 6) .AccountOwner (Sample.key 50)
      (some (Sample.key 129))).exec Sample.env.tokenProgramId [Sample.key 50] loose = .ok w' ∧
    ∃ t', tokenAt w' (Sample.key 6) = some t' ∧ t'.owner = Sample.key 129 := by
  obtain ⟨w', h, t', h1, h2, _⟩ := C66_handover Sample.env loose [Sample.key 50] (Sample.key 6)
    (Sample.key 129) ⟨Sample.key 5, Sample.key 50, 0, none, false, 0, none⟩ (by decide +kernel)
    (by decide +kernel) rfl ⟨by decide +kernel, by decide⟩
  exact ⟨w', h, t', h1, h2⟩

end Props
end Verif
