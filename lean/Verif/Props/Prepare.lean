import Verif.Props.Admission
import Verif.Props.Block

/-
C103: nobody else can hold up the creation of a pool, except by gifts to a linear pool's vault for token A.
-/

namespace Verif
namespace Props

open Spec Processor

section
variable {env : Env} {sys : Pubkey} {K S : Pubkey → Prop}

/-- Where accounts prepared for a pool at `k` stand relative to an earlier ledger. -/
structure Kept (env : Env) (k : Pubkey) (w w' : World) : Prop where
  unused : ∀ s, ¬ PoolAt env w' k s
  vault : ∀ v m, SoleOwner env w v m (env.findPda k).1 →
    SoleOwner env w' v m (env.findPda k).1 ∧ bal w v ≤ bal w' v
  minter : ∀ m, SoleMinter env w m (env.findPda k).1 →
    SoleMinter env w' m (env.findPda k).1 ∧ supply w' m ≤ supply w m
  state : ∀ l, (w k).owner = env.programId → (w k).data = .raw l →
    (w' k).owner = env.programId ∧ ∃ l', (w' k).data = .raw l'

theorem Kept.refl {k : Pubkey} {w : World} (h : ∀ s, ¬ PoolAt env w k s) : Kept env k w w :=
  ⟨h, fun _ _ h => ⟨h, le_rfl⟩, fun _ h => ⟨h, le_rfl⟩, fun l h1 h2 => ⟨h1, l, h2⟩⟩

theorem Kept.trans {k : Pubkey} {w u v : World} (h : Kept env k w u) (g : Kept env k u v) :
    Kept env k w v := by
  refine ⟨g.unused, fun x m hx => ?_, fun m hm => ?_, fun l h1 h2 => ?_⟩
  · obtain ⟨a1, a2⟩ := h.vault x m hx
    obtain ⟨b1, b2⟩ := g.vault x m a1
    exact ⟨b1, a2.trans b2⟩
  · obtain ⟨a1, a2⟩ := h.minter m hm
    obtain ⟨b1, b2⟩ := g.minter m a1
    exact ⟨b1, b2.trans a2⟩
  · obtain ⟨a1, l', a2⟩ := h.state l h1 h2
    exact g.state l' a1 a2

/-- Steps of others leave what is prepared for a pool. -/
theorem kept_other (he : EnvOk env K) {k : Pubkey} (hk : K k) {w w' : World}
    (hno : ∀ s, ¬ PoolAt env w k s) (h : EnvStep env K w w') : Kept env k w w' := by
  have hp : IsPda env K (env.findPda k).1 := ⟨k, _, hk, he.find k hk⟩
  refine ⟨fun s hs => ?_, fun v m hv => hv.envStep hp h, fun m hm => hm.envStep hp h, fun l h1 h2 => ?_⟩
  · rcases step_pool_back hs (.other h) with h' | ⟨sg, i, a, f, c, hK, hsg, hi, hx, e⟩
    · exact hno s h'
    · obtain ⟨_, _, _, _, _, _, _, _, _, _, _, _, _, _, _, _, _, _, _, _, _, _, _, _, _, _, _, _,
        _, _, hpool, _⟩ := C27_initialize env sg i a f c w w' hi hx
      rw [e] at hpool
      by_cases ho : (w k).owner = env.programId
      · rcases h.program k ho with h' | ⟨_, _, h'⟩
        · exact hno s (by rw [PoolAt, ← h']; exact hs)
        · exact absurd hs (idl_not_pool h')
      · have := exec_owner hx k
        exact ho (this.symm.trans hs.1)
  · rcases h.program k h1 with h' | ⟨h1', _, t, h'⟩
    · rw [h']; exact ⟨h1, l, h2⟩
    · exact ⟨h1', _, h'⟩

/-- So do instructions of this program that do not create the pool. -/
theorem kept_instr (he : EnvOk env K) {k : Pubkey} (hk : K k) {w w' : World}
    (hno : ∀ s, ¬ PoolAt env w k s) {signers : List Pubkey} {i : Instr} (hK : K i.pool)
    (hs : ∀ x ∈ signers, ¬ IsPda env K x) (h : exec env signers i w = .ok w')
    (hni : ∀ a f c, InitOf i a f c → a.swap ≠ k) : Kept env k w w' := by
  have hx := he.find k hk
  have hne : i.pool ≠ k := by
    intro e
    rcases C32_pool_mint env signers i w w' h with ⟨a, f, c, hi⟩ | ⟨ts, hp, _⟩
    · exact hni a f c hi ((init_pool hi).symm.trans e)
    · exact hno ts (e ▸ hp)
  have hlow : ∀ m, SoleMinter env w m (env.findPda k).1 → supply w' m ≤ supply w m := by
    intro m hm
    by_contra hlt
    obtain ⟨b, pda, mm, h1, h2, h3⟩ := exec_supply he hK h (m := m) (by omega)
    obtain ⟨_, q, g2, g3, _⟩ := hm
    rw [h2] at g2
    cases g2
    rw [h3] at g3
    cases g3
    exact hne (he.inj _ _ _ _ _ hK hk h1 hx)
  refine ⟨fun s hp => ?_, fun v m hv => ⟨?_, vault_step he hk hx hv hs hK h hne⟩,
    fun m hm => ⟨?_, hlow m hm⟩, fun l h1 h2 => ⟨(exec_owner h k).trans h1, ?_⟩⟩
  · rcases exec_frame h with ⟨a, f, c, hi⟩ | hf
    · obtain ⟨w1, hf, hw, _⟩ := init_shape hi h
      have hk' : k ≠ a.swap := fun e => hni a f c hi e.symm
      obtain ⟨p1, l, p2, p3⟩ := hp
      rw [hw k hk'] at p1 p2
      have hd := (hf k).2
      rw [p2] at hd
      refine hno s ⟨(hf k).1.symm.trans p1, l, ?_, p3⟩
      cases hq : (w k).data with
      | raw b => rw [hq] at hd; rw [show l = b from hd]
      | token t => rw [hq] at hd; exact hd.elim
      | mint t => rw [hq] at hd; exact hd.elim
    · obtain ⟨p1, l, p2, p3⟩ := hp
      have hd := (hf k).2
      rw [p2] at hd
      refine hno s ⟨(hf k).1.symm.trans p1, l, ?_, p3⟩
      cases hq : (w k).data with
      | raw b => rw [hq] at hd; rw [show l = b from hd]
      | token t => rw [hq] at hd; exact hd.elim
      | mint t => rw [hq] at hd; exact hd.elim
  · rcases exec_frame h with ⟨a, f, c, hi⟩ | hf
    · obtain ⟨w1, hf, hw, _, old, hold⟩ := init_shape hi h
      refine (hv.frame hf).congr (hw _ fun e => ?_)
      obtain ⟨_, t, ht, _⟩ := hv
      rw [e, hold] at ht; cases ht
    · exact hv.frame hf
  · rcases exec_frame h with ⟨a, f, c, hi⟩ | hf
    · obtain ⟨w1, hf, hw, _, old, hold⟩ := init_shape hi h
      refine (hm.frame hf).congr (hw _ fun e => ?_)
      obtain ⟨_, t, ht, _⟩ := hm
      rw [e, hold] at ht; cases ht
    · exact hm.frame hf
  · rcases exec_frame h with ⟨a, f, c, hi⟩ | hf
    · obtain ⟨w1, hf, hw, _⟩ := init_shape hi h
      exact ⟨l, by rw [hw k (fun e => hni a f c hi e.symm)]; exact hf.raw h2⟩
    · exact ⟨l, hf.raw h2⟩

theorem kept_all (he : EnvOk env K) (hst : sys ≠ env.tokenProgramId) (hsp : sys ≠ env.programId)
    {k : Pubkey} (hk : K k) (hSk : S k) {w w' : World} (hc : Clean env sys K w)
    (hno : ∀ s, ¬ PoolAt env w k s) (h : Relation.ReflTransGen (Without env sys K S) w w') :
    Kept env k w w' ∧ Moves env sys K w w' := by
  suffices hs : Kept env k w w' ∧ Moves env sys K w w' ∧ Clean env sys K w' from ⟨hs.1, hs.2.1⟩
  induction h with
  | refl => exact ⟨.refl hno, .refl, hc⟩
  | tail _ hm ih =>
    obtain ⟨i1, i2, i3⟩ := ih
    have hmv := C77_only_steps env sys K S _ _ hm
    refine ⟨i1.trans ?_, i2.tail hmv, (hmv.step he hst hsp i3).2⟩
    cases hm with
    | instr signers i hK hs hn h =>
      refine kept_instr he hk i1.unused hK hs h fun a f c hi e => ?_
      exact hn k (e ▸ (exec_init hi h).1) hSk
    | token signers i hs hn h =>
      exact kept_other he hk i1.unused (C66_contract env sys K he hst hsp _ _ i3 (.token signers i hs h)).1
    | other h hn => exact kept_other he hk i1.unused (C66_contract env sys K he hst hsp _ _ i3 h).1

end

/-- C103.  What has been put in place for a pool stays until the holder of the key of the pool's account
creates it: nobody else can create a pool there, take anything out of the vaults or issue pool tokens. -/
theorem C103_safe (env : Env) (sys : Pubkey) (K S : Pubkey → Prop) (he : EnvOk env K)
    (hst : sys ≠ env.tokenProgramId) (hsp : sys ≠ env.programId) (w w' : World)
    (hc : Clean env sys K w) (k : Pubkey) (hk : K k) (hS : S k) (hno : ∀ s, ¬ PoolAt env w k s)
    (h : Relation.ReflTransGen (Without env sys K S) w w') :
    (∀ s, ¬ PoolAt env w' k s) ∧
    (∀ v m, SoleOwner env w v m (env.findPda k).1 →
      SoleOwner env w' v m (env.findPda k).1 ∧ bal w v ≤ bal w' v) ∧
    (∀ m, SoleMinter env w m (env.findPda k).1 →
      SoleMinter env w' m (env.findPda k).1 ∧ supply w' m ≤ supply w m) := by
  obtain ⟨g, _⟩ := kept_all he hst hsp hk hS hc hno h
  exact ⟨g.unused, g.vault, g.minter⟩

/-- C103.  If a pool can be created, then, whatever happens that the holder of the key of its account and the
owners of the fee account and of the account for the first pool tokens do not approve of, it can still be
created - except that a linear pool cannot if somebody has sent tokens A to its vault.  (`hsize`: accounts of
a program do not change their size; the model of Anchor's IDL instructions leaves it open.) -/
theorem C103_exact_partial (env : Env) (sys : Pubkey) (K S : Pubkey → Prop) (he : EnvOk env K)
    (hst : sys ≠ env.tokenProgramId) (hsp : sys ≠ env.programId) (w w' : World)
    (hc : Clean env sys K w) (signers : List Pubkey) (i : Instr) (a : InitAccounts) (f : Fees) (c : Curve)
    (hi : InitOf i a f c) (hK : K a.swap) (u : World) (hx : exec env signers i w = .ok u)
    (oF oD : Pubkey) (hS : ∀ x, S x → ¬ IsPda env K x) (hk : S a.swap) (hoF : S oF) (hoD : S oD)
    (hF : OwnedBy env w a.fee a.poolMint oF) (hD : OwnedBy env w a.destination a.poolMint oD)
    (hacc : Accounted env w a.poolMint) (hnat : a.poolMint ≠ Token.nativeMint)
    (h : Relation.ReflTransGen (Without env sys K S) w w')
    (hsize : ∀ l, (w' a.swap).data = .raw l → l.length = 324) :
    (∃ u', exec env signers i w' = .ok u') ↔ ∀ l, c = .linear l → bal w' a.tokenA = 0 := by
  have had := (C56_initialize env K he signers i a f c hi hK w).1 ⟨u, hx⟩
  obtain ⟨g, hmv⟩ := kept_all he hst hsp hK hk hc had.unused h
  rw [C56_initialize env K he signers i a f c hi hK w']
  have hd := had.derived
  obtain ⟨tA, tB, v1, v2, v3, v4, v5, v6⟩ := had.vaults
  rw [hd] at v3 v4
  obtain ⟨A1, A2⟩ := g.vault _ _ v3
  obtain ⟨B1, B2⟩ := g.vault _ _ v4
  obtain ⟨_, tA', A3, A4, _⟩ := id A1
  obtain ⟨_, tB', B3, B4, _⟩ := id B1
  rw [bal_token A3, bal_token (tokenAt_some.1 v1)] at A2
  rw [bal_token B3, bal_token (tokenAt_some.1 v2)] at B2
  constructor
  · rintro hw l rfl
    obtain ⟨sA, sB, s1, _, _, _, _, _, _, _, _, s6, _⟩ := hw.vaults
    rw [bal_token (tokenAt_some.1 s1), s6]
    rfl
  · intro hl
    have hfz : FrozenOnlyBy env w a.poolMint S := by
      obtain ⟨m1, q, m2, _, m3⟩ := had.minter
      exact ⟨none, ⟨m1, q, m2, m3⟩, nofun⟩
    have hM := had.minter
    rw [hd] at hM
    obtain ⟨M1, M2⟩ := g.minter _ hM
    have hsup : supply w' a.poolMint = 0 := by
      have e := had.unissued
      obtain ⟨_, q, m2, _⟩ := M1
      rw [supply_mint m2] at M2 ⊢
      omega
    obtain ⟨r1, rt, r2, r3, r4, r5⟩ := had.room
    obtain ⟨d1, d2⟩ := without_dest hst hS hoD hfz h ⟨rt, r2, r4⟩ hD
    obtain ⟨f1, ft, f2, f3, f4, f5⟩ := hF
    obtain ⟨F1, ft', F2, F3, F4, _⟩ := respects_all hS (k := a.fee) h ft f1 (tokenAt_some.1 f2) (f4 ▸ hoF) f5
    obtain ⟨_, ft0, e1, _, e2, e3⟩ := had.feeAccount
    rw [f2] at e1
    cases e1
    obtain ⟨dt, y1, y2⟩ := had.first
    obtain ⟨_, dt0, z1, _, z3, _⟩ := hD
    rw [z1] at y1
    cases y1
    obtain ⟨D1, dt', D2, D3, D4, _⟩ := d2
    obtain ⟨dt2, D5, D6⟩ := d1
    rw [D2] at D5
    cases D5
    obtain ⟨l0, q0⟩ := had.state.2
    obtain ⟨S1, l', S2⟩ := g.state l0 had.state.1 q0.1
    refine ⟨had.signed, hd, had.program, ⟨S1, l', S2, hsize l' S2⟩, g.unused,
      ⟨tA', tB', tokenAt_some.2 A3, tokenAt_some.2 B3, ?_, ?_, ?_, ?_⟩, ?_, hsup,
      ⟨F1, ft', tokenAt_some.2 F2, F3.trans f3, ?_, ?_⟩, ⟨dt', D2, ?_⟩, ⟨D1, dt', D2, D3, D6, ?_⟩, had.fees⟩
    · rw [hd, A4]; exact A1
    · rw [hd, B4]; exact B1
    · rw [A4, B4]; exact v5
    · cases hi with
      | price a f p =>
        refine ⟨v6.1, fun e => v6.2 ?_⟩
        rw [e] at A2
        exact UInt64.toNat_inj.1 (by
          have : ((0 : UInt64).toNat : Int) = 0 := rfl
          have : (0 : UInt64).toNat = 0 := rfl
          omega)
      | linear a l =>
        obtain ⟨g1, g2, g3, g4, _, g6⟩ := v6
        have e0 := hl l rfl
        rw [bal_token A3] at e0
        have z : (0 : UInt64).toNat = 0 := rfl
        refine ⟨g1, g2, g3, g4, UInt64.toNat_inj.1 (by omega), fun e => g6 ?_⟩
        rw [e] at B2
        exact UInt64.toNat_inj.1 (by omega)
    · rw [hd]; exact M1
    · rw [F4]; exact e2
    · rw [F4]; exact e3
    · rw [D4, ← z3]; exact y2
    · have hA := C73_accounted env sys K he hst w w' hmv a.poolMint hnat hacc
      have hcv := C73_covered env w' a.poolMint hA {a.destination}
      rw [Finset.sum_singleton, held_token D1 D2 D3] at hcv
      obtain ⟨m1, q, m2, _⟩ := M1
      have hq : issued env (w' a.poolMint) = q.supply.toNat := by
        unfold issued
        rw [m2]
        exact if_pos m1
      rw [supply_mint m2] at hsup
      omega

/-- C103.  So a constant-price pool can always still be created. -/
theorem C103_fixed_partial (env : Env) (sys : Pubkey) (K S : Pubkey → Prop) (he : EnvOk env K)
    (hst : sys ≠ env.tokenProgramId) (hsp : sys ≠ env.programId) (w w' : World)
    (hc : Clean env sys K w) (signers : List Pubkey) (a : InitAccounts) (f : Fees) (p : UInt64)
    (hK : K a.swap) (u : World) (hx : exec env signers (.initConstantPrice a f p) w = .ok u)
    (oF oD : Pubkey) (hS : ∀ x, S x → ¬ IsPda env K x) (hk : S a.swap) (hoF : S oF) (hoD : S oD)
    (hF : OwnedBy env w a.fee a.poolMint oF) (hD : OwnedBy env w a.destination a.poolMint oD)
    (hacc : Accounted env w a.poolMint) (hnat : a.poolMint ≠ Token.nativeMint)
    (h : Relation.ReflTransGen (Without env sys K S) w w')
    (hsize : ∀ l, (w' a.swap).data = .raw l → l.length = 324) :
    ∃ u', exec env signers (.initConstantPrice a f p) w' = .ok u' :=
  (C103_exact_partial env sys K S he hst hsp w w' hc signers _ a f _ (.price a f p) hK u hx oF oD hS hk hoF
    hoD hF hD hacc hnat h hsize).2 nofun

/-- C103, what is missing above: once a vault prepared for token A of a linear pool holds anything, no linear
pool is ever created with it, whoever tries and whatever happens meanwhile. -/
theorem C103_stuck (env : Env) (K : Pubkey → Prop) (he : EnvOk env K) (w w' : World) (k v m : Pubkey)
    (hk : K k) (hv : SoleOwner env w v m (env.findPda k).1) (hb : 0 < bal w v) (h : Steps env K w w')
    (signers : List Pubkey) (a : InitAccounts) (c : LinearPriceCurve) (ha : a.swap = k)
    (hA : a.tokenA = v) (u : World) : exec env signers (.initLinearPrice a c) w' ≠ .ok u := by
  have key : (∃ s, PoolAt env w' k s) ∨ SoleOwner env w' v m (env.findPda k).1 ∧ 0 < bal w' v := by
    induction h with
    | refl => exact .inr ⟨hv, hb⟩
    | @tail x y _ hm ih =>
      rcases ih with ⟨s, hp⟩ | ⟨i1, i2⟩
      · have := step_pool hp hm
        exact .inl ⟨s, poolAt_congr this.1 this.2 hp⟩
      · by_cases hno : ∃ s, PoolAt env x k s
        · obtain ⟨s, hp⟩ := hno
          have := step_pool hp hm
          exact .inl ⟨s, poolAt_congr this.1 this.2 hp⟩
        · have hno : ∀ s, ¬ PoolAt env x k s := fun s hp => hno ⟨s, hp⟩
          have done : Kept env k x y → SoleOwner env y v m (env.findPda k).1 ∧ 0 < bal y v := fun g =>
            ⟨(g.vault v m i1).1, i2.trans_le (g.vault v m i1).2⟩
          cases hm with
          | other h => exact .inr (done (kept_other he hk hno h))
          | instr sg j hK hs h =>
            by_cases hj : ∃ b f d, InitOf j b f d ∧ b.swap = k
            · obtain ⟨b, f, d, hj, e⟩ := hj
              obtain ⟨_, _, _, _, _, _, _, _, _, _, _, _, _, _, _, _, _, _, _, _, _, _, _, _, _, _, _, _,
                _, _, hpool, _⟩ := C27_initialize env sg j b f d x y hj h
              rw [e] at hpool
              exact .inl ⟨_, hpool⟩
            · exact .inr (done (kept_instr he hk hno hK hs h
                fun b f d hj' e => hj ⟨b, f, d, hj', e⟩))
  intro hx
  have had := (C56_initialize env K he signers _ a _ _ (.linear a c) (ha ▸ hk) w').1 ⟨u, hx⟩
  rcases key with ⟨s, hp⟩ | ⟨_, hb'⟩
  · exact had.unused s (ha ▸ hp)
  · obtain ⟨tA, tB, s1, _, _, _, _, _, _, _, _, s6, _⟩ := had.vaults
    rw [← hA, bal_token (tokenAt_some.1 s1), s6] at hb'
    exact absurd hb' (by decide)

/-! ### The hypotheses are met -/

/-- The accounts of the two pools of the sample before they are created, and 51 with seven tokens A. -/
def prepAccounts : List (Pubkey × Account) :=
  (Sample.key 32, Sample.tok (Sample.key 20) (Sample.key 51) 7) ::
  (Sample.key 20, Sample.mnt (Sample.key 61) 25007) :: Sample.accounts

def prepStart : World := Sample.ledger prepAccounts

/-- Those who set the pools up. -/
def founders (x : Pubkey) : Prop :=
  x ∈ [Sample.key 1, Sample.key 2, Sample.key 50, Sample.key 60]

theorem founders_users : ∀ x, founders x → ¬ IsPda Sample.env samplePools x := by
  intro x hx
  unfold founders at hx
  simp only [List.mem_cons, List.not_mem_nil, or_false] at hx
  rcases hx with rfl | rfl | rfl | rfl
  · exact sample_signers _ (by decide)
  · exact sample_signers _ (by decide)
  · exact sample_signers _ (by decide)
  · exact user60 _ (by decide)

theorem user51 : ∀ x ∈ [Sample.key 51], ¬ IsPda Sample.env samplePools x := by
  rintro x hx ⟨k, b, hk, h⟩
  rw [List.mem_singleton.1 hx] at h
  unfold Sample.env at h
  simp only [] at h
  split at h
  · have h := Option.some.inj h
    rcases hk with rfl | rfl <;> revert h <;> decide +kernel
  · cases h

theorem prep_clean : Clean Sample.env (Sample.key 0) samplePools prepStart := by
  rintro x ⟨k, b, hk, h⟩
  unfold Sample.env at h
  simp only [] at h
  split at h
  · rw [← Option.some.inj h]
    rcases hk with rfl | rfl <;> decide +kernel
  · cases h

theorem prep_accounted : Accounted Sample.env prepStart (Sample.key 5) ∧
    Accounted Sample.env prepStart (Sample.key 15) :=
  ⟨ledger_accounted (n := 0) ∅ (by decide +kernel) (by decide +kernel) (by decide +kernel),
    ledger_accounted (n := 0) ∅ (by decide +kernel) (by decide +kernel) (by decide +kernel)⟩

/-- 51 sends a token A to the vault prepared for the linear pool, and one to the other pool's. -/
def gift1 : World := match (Token.TokenInstr.transfer (Sample.key 32) (Sample.key 3) (Sample.key 51)
    1).exec Sample.env.tokenProgramId [Sample.key 51] prepStart with
  | .ok w => w
  | .error _ => prepStart
def gift2 : World := match (Token.TokenInstr.transfer (Sample.key 32) (Sample.key 13) (Sample.key 51)
    1).exec Sample.env.tokenProgramId [Sample.key 51] gift1 with
  | .ok w => w
  | .error _ => gift1

theorem gift_without : Relation.ReflTransGen
    (Without Sample.env (Sample.key 0) samplePools founders) prepStart gift2 := by
  obtain ⟨w, hw⟩ := of_isOk (x := (Token.TokenInstr.transfer (Sample.key 32) (Sample.key 3)
    (Sample.key 51) 1).exec Sample.env.tokenProgramId [Sample.key 51] prepStart) (by decide +kernel)
  have e : gift1 = w := by unfold gift1; rw [hw]
  rw [← e] at hw
  obtain ⟨v, hv⟩ := of_isOk (x := (Token.TokenInstr.transfer (Sample.key 32) (Sample.key 13)
    (Sample.key 51) 1).exec Sample.env.tokenProgramId [Sample.key 51] gift1) (by decide +kernel)
  have e' : gift2 = v := by unfold gift2; rw [hv]
  rw [← e'] at hv
  have no : ∀ w, (∀ x ∈ [Sample.key 1, Sample.key 2, Sample.key 50, Sample.key 60],
      (w x).owner ≠ Sample.env.tokenProgramId) → ∀ x, founders x →
      ¬ Consents Sample.env w [Sample.key 51] x := by
    rintro w hn x hx (⟨b, h, _⟩ | ⟨_, h⟩)
    · exact hn x hx h.1
    · rw [List.mem_singleton.1 h] at hx
      revert hx
      unfold founders
      decide
  exact .tail (.single (.token _ _ user51 (no _ (by decide +kernel)) hw))
    (.token _ _ user51 (no _ (by decide +kernel)) hv)

/-- The other pool can still be created. -/
example : ∃ u, exec Sample.env [Sample.key 2] Sample.initPrice gift2 = .ok u := by
  obtain ⟨u, hu⟩ := of_isOk (x := exec Sample.env [Sample.key 2] Sample.initPrice prepStart)
    (by decide +kernel)
  exact C103_fixed_partial Sample.env (Sample.key 0) samplePools founders sample_ok (by decide) (by decide)
    prepStart gift2 prep_clean _ Sample.init2 Sample.fees 7 (Or.inr rfl) u hu (Sample.key 60)
    (Sample.key 50) founders_users (by unfold founders; decide) (by unfold founders; decide)
    (by unfold founders; decide)
    ⟨by decide +kernel, plain 15 60 0, rfl, rfl, rfl, rfl⟩
    ⟨by decide +kernel, plain 15 50 0, rfl, rfl, rfl, rfl⟩ prep_accounted.2 (by decide) gift_without
    (fun l hl => by
      have e : (gift2 Sample.init2.swap).data = .raw (List.replicate 324 0) := by decide +kernel
      rw [← Data.raw.inj (e.symm.trans hl), List.length_replicate])

/-- C103 is false of linear pools.  Everything is in place for the linear pool, and it could be created.
51, who has nothing to do with it, sends a single token A to the vault.  After that no linear pool is ever
created with this vault, whatever happens and whoever signs. -/
theorem C103_false :
    Clean Sample.env (Sample.key 0) samplePools prepStart ∧
    Accounted Sample.env prepStart (Sample.key 5) ∧
    isOk (exec Sample.env [Sample.key 1] Sample.initLinear prepStart) = true ∧
    OwnedBy Sample.env prepStart (Sample.key 6) (Sample.key 5) (Sample.key 60) ∧
    OwnedBy Sample.env prepStart (Sample.key 7) (Sample.key 5) (Sample.key 50) ∧
    ∃ w', Relation.ReflTransGen (Without Sample.env (Sample.key 0) samplePools founders) prepStart w' ∧
      bal w' (Sample.key 3) = 1 ∧
      ∀ v, Moves Sample.env (Sample.key 0) samplePools w' v → ∀ signers a c u,
        a.swap = Sample.key 1 → a.tokenA = Sample.key 3 →
        exec Sample.env signers (.initLinearPrice a c) v ≠ .ok u := by
  refine ⟨prep_clean, prep_accounted.1, by decide +kernel,
    ⟨by decide +kernel, plain 5 60 0, rfl, rfl, rfl, rfl⟩,
    ⟨by decide +kernel, plain 5 50 0, rfl, rfl, rfl, rfl⟩, gift2, gift_without, by decide +kernel, ?_⟩
  intro v hv signers a c u ha hA
  have hcl : Clean Sample.env (Sample.key 0) samplePools gift2 := by
    rintro x ⟨k, b, hk, h⟩
    unfold Sample.env at h
    simp only [] at h
    split at h
    · rw [← Option.some.inj h]
      rcases hk with rfl | rfl <;> decide +kernel
    · cases h
  have hs : Steps Sample.env samplePools gift2 v := by
    suffices h : Steps Sample.env samplePools gift2 v ∧ Clean Sample.env (Sample.key 0) samplePools v from h.1
    induction hv with
    | refl => exact ⟨.refl, hcl⟩
    | tail _ hm ih =>
      obtain ⟨h1, h2⟩ := hm.step sample_ok (by decide) (by decide) ih.2
      exact ⟨ih.1.tail h1, h2⟩
  exact C103_stuck Sample.env samplePools sample_ok gift2 v (Sample.key 1) (Sample.key 3) (Sample.key 20)
    (Or.inl rfl) ⟨by decide +kernel, plain 20 129 1, by decide +kernel, rfl, by decide, rfl, rfl⟩
    (by decide +kernel) hs signers a c ha hA u

/-- Meanwhile nobody can take the tokens B out of the vaults or create a pool in the founders' place. -/
example : (∀ s, ¬ PoolAt Sample.env gift2 (Sample.key 1) s) ∧
    bal prepStart (Sample.key 4) ≤ bal gift2 (Sample.key 4) := by
  have hno : ∀ s, ¬ PoolAt Sample.env prepStart (Sample.key 1) s := by
    rintro s ⟨_, l, h2, h3⟩
    rw [← Data.raw.inj (show Data.raw (List.replicate 324 0) = .raw l from h2)] at h3
    exact unpack_zeros _ _ h3
  obtain ⟨g1, g2, _⟩ := C103_safe Sample.env (Sample.key 0) samplePools founders sample_ok (by decide)
    (by decide) prepStart gift2 prep_clean (Sample.key 1) (Or.inl rfl) (by unfold founders; decide) hno
    gift_without
  exact ⟨g1, (g2 (Sample.key 4) (Sample.key 21)
    ⟨by decide +kernel, plain 21 129 100, rfl, rfl, by decide, rfl, rfl⟩).2⟩

end Props
end Verif
